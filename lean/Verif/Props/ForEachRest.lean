import Verif.Props.ForEach
/-
C11 for arbitrary closures, which may have state and panic: `simd_for_each` at every position of the
iterator.
-/
namespace Faster
open Res SIMDSized SIMDIterable SIMDIterator MutM

section
variable {α σ : Type} [Packable α] {w : Nat} (c : Cfg) (fuel : Nat) (data : List α) (d : Vector α w)
  (st : σ) (f : FnMut σ (Vector α w) (Vector α w)) (p : Nat)

/-- **C11**, any closure which returns, if at least one full vector, or nothing, is left: the
consumed elements are unchanged, the others are replaced by the closure's results on them. Missing:
a rest shorter than a vector after consumed elements (`C11_for_each_consumed`,
`C11_consumed_panic`, `C11_small_rest`). -/
theorem C11_any_closure_partial (st' : σ) (us : List (Vector α w)) (hw : 0 < w)
    (hlen : data.length + w < c.usize) (hp : p + w < c.usize) (hfuel : data.length / w < fuel)
    (hrest : p + w ≤ data.length ∨ data.length ≤ p)
    (hf : callAll f st (calls w d (data.drop p)) = ok (us, st')) :
    simdForEach c fuel st f (⟨p, ⟨data⟩, d⟩ : SIMDIter (Slice α w) α w) =
      (ok st', ⟨max p data.length,
        ⟨data.take p ++ unpad ((w - (data.length - p) % w) % w) us⟩, d⟩) := by
  obtain ⟨p', h, h2, -⟩ := simdForEach_run (c := c) f d hw fuel data p st hlen hp hfuel
    (Or.inr hrest)
  rw [mapRun_of_callAll f st st' _ us hf] at h h2
  rw [h, h2 st' rfl]
  rfl

/-- **C11**, a closure which panics at call `k`, if at least one full vector is left: the consumed
elements are unchanged, the results of the earlier calls are stored, and everything from the vector
of the failed call on is unchanged. -/
theorem C11_panic_partial (st' : σ) (us : List (Vector α w)) (k : Nat) (v : Vector α w) (hw : 0 < w)
    (hlen : data.length + w < c.usize) (hfuel : data.length / w < fuel)
    (hrest : p + w ≤ data.length)
    (hk : (calls w d (data.drop p))[k]? = some v)
    (hf : callAll f st ((calls w d (data.drop p)).take k) = ok (us, st'))
    (hpanic : f st' v = panic) :
    simdForEach c fuel st f (⟨p, ⟨data⟩, d⟩ : SIMDIter (Slice α w) α w) =
      (panic, ⟨min (p + (k + 1) * w) data.length,
        ⟨data.take p ++ lanes us ++ data.drop (p + k * w)⟩, d⟩) := by
  obtain ⟨p', h, -, h'⟩ := simdForEach_run (c := c) f d hw fuel data p st hlen (by omega) hfuel
    (Or.inr (Or.inl hrest))
  rw [mapRun_panic_at f st st' _ us k v hk hf hpanic] at h h'
  have h1 := callAll_length f st _ hf
  have h2 : k < (calls w d (data.drop p)).length := by
    rcases Nat.lt_or_ge k (calls w d (data.drop p)).length with h | h
    · exact h
    · rw [List.getElem?_eq_none h] at hk; cases hk
  rw [List.length_take, Nat.min_eq_left (by omega)] at h1
  rw [h, h' (by simp), h1]
  simp only [forEachData, splice, lanes_length, h1]

/-- **C11**, a rest shorter than a vector after consumed elements in a slice longer than a vector, and
a closure which panics on it: nothing is written. -/
theorem C11_consumed_panic (hw : 0 < w) (hlen : data.length + w < c.usize) (hfuel : 0 < fuel)
    (hp : p < data.length) (hpw : data.length < p + w) (hdw : w < data.length)
    (hf : f st (padFront d (data.drop p)) = panic) :
    simdForEach c fuel st f (⟨p, ⟨data⟩, d⟩ : SIMDIter (Slice α w) α w) =
      (panic, ⟨data.length, ⟨data⟩, d⟩) := by
  simp only [simdForEach, run_bind]
  have hq : (data.length - p) / w = 0 := Nat.div_eq_of_lt (by omega)
  rw [forEachLoop_run (mutRep_slice c) f d hw fuel data p _ st hlen (by omega) (by omega),
    fullWindows_short (by simp; omega)]
  simp only [mapRun, ok_bind, run_get, run_lift, SIMDIterable.scalarPos, run_call, failCount,
    List.length_nil, Nat.add_zero, Nat.zero_mul, lanes_nil, splice_nil]
  rw [simdIter_end_exact (represents_slice c data) p d hlen, if_neg (by omega), if_neg (by omega),
    if_neg (by omega)]
  simp only [run_bind, run_lift, hf]

/-- **C11**, a partly consumed slice of at most one vector: `end` fails before the closure is called
and before anything is written. -/
theorem C11_small_rest (hw : 0 < w) (hlen : data.length + w < c.usize) (hfuel : 0 < fuel)
    (h0 : 0 < p) (hp : p < data.length) (hdw : data.length ≤ w) :
    simdForEach c fuel st f (⟨p, ⟨data⟩, d⟩ : SIMDIter (Slice α w) α w) =
      (if c.debug then panic else ub, ⟨p, ⟨data⟩, d⟩) := by
  simp only [simdForEach, run_bind]
  have hq : (data.length - p) / w = 0 := Nat.div_eq_of_lt (by omega)
  rw [forEachLoop_run (mutRep_slice c) f d hw fuel data p _ st hlen (by omega) (by omega),
    fullWindows_short (by simp; omega)]
  simp only [mapRun, ok_bind, run_get, run_lift, SIMDIterable.scalarPos, run_call, failCount,
    List.length_nil, Nat.add_zero, Nat.zero_mul, lanes_nil, splice_nil]
  rw [simdIter_end_exact (represents_slice c data) p d hlen, if_neg (by omega), if_neg (by omega),
    if_pos ⟨h0, hdw⟩]
  unfold badAccess
  cases c.debug <;> rfl

end

/-- A closure which numbers its calls, from position 1 of six elements. -/
example : simdForEach release64 9 (0 : Nat)
    (fun n (v : Vector (BitVec 8) 2) => ok (v.map (· + BitVec.ofNat 8 (10 * n)), n + 1))
    (⟨1, ⟨[1, 2, 3, 4, 5, 6]⟩, #v[0, 0]⟩ : SIMDIter (Slice (BitVec 8) 2) (BitVec 8) 2) =
    (ok 3, ⟨6, ⟨[1, 2, 3, 14, 15, 26]⟩, #v[0, 0]⟩) := by decide +kernel

/-- A closure which panics on its second call. -/
example : simdForEach debug64 9 (0 : Nat)
    (fun n (v : Vector (BitVec 8) 2) => if n = 1 then panic else ok (v.map (· + 10), n + 1))
    (⟨1, ⟨[1, 2, 3, 4, 5, 6]⟩, #v[0, 0]⟩ : SIMDIter (Slice (BitVec 8) 2) (BitVec 8) 2) =
    (panic, ⟨5, ⟨[1, 12, 13, 4, 5, 6]⟩, #v[0, 0]⟩) := by decide +kernel

/-- One element consumed of three in vectors of four. -/
example : simdForEach release64 9 () (pureFn (Vector.map (· + 1#8)))
    (⟨1, ⟨[1, 2, 3]⟩, #v[0, 0, 0, 0]⟩ : SIMDIter (Slice (BitVec 8) 4) (BitVec 8) 4) =
    (ub, ⟨1, ⟨[1, 2, 3]⟩, #v[0, 0, 0, 0]⟩) :=
  C11_small_rest release64 9 _ _ _ _ _ (by decide) (by decide) (by decide) (by decide) (by decide)
    (by decide)

end Faster
