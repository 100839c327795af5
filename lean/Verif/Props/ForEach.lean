import Verif.Props.Fill
import Verif.Lemmas.ForEach
/-
C10, C11, C12: in-place mutation with `simd_for_each`.
-/
namespace Faster
open Res SIMDSized SIMDIterable SIMDIterator MutM

theorem mapRun_of_callAll {σ β γ : Type} (f : FnMut σ β γ) (st st' : σ) (vs : List β) (us : List γ)
    (h : callAll f st vs = ok (us, st')) : mapRun f st vs = (us, ok st') := by
  rw [callAll_mapRun] at h
  cases h2 : (mapRun f st vs).2 with
  | ok s =>
    rw [h2] at h
    simp only [ok_bind, ok.injEq, Prod.mk.injEq] at h
    exact Prod.ext h.1 (by rw [h2, h.2])
  | _ => rw [h2] at h; cases h

/-! ### C10 -/

/-- **C10** (any closure). `simd_for_each` on a fresh iterator replaces the
contents by the closure's outputs: full windows, then the lanes of the last
output which correspond to elements. The closure is called on the windows of
the *old* contents (`calls`), once each. -/
theorem C10_for_each_any_closure {α σ : Type} [Packable α] {w : Nat} (c : Cfg) (fuel : Nat)
    (data : List α) (d : Vector α w) (st st' : σ) (f : FnMut σ (Vector α w) (Vector α w))
    (us : List (Vector α w)) (hw : 0 < w) (hlen : data.length + w < c.usize)
    (hfuel : data.length / w < fuel)
    (hf : callAll f st (calls w d data) = ok (us, st')) :
    simdForEach c fuel st f (simdIter data d) =
      (ok st', ⟨data.length, ⟨unpad ((w - data.length % w) % w) us⟩, d⟩) := by
  obtain ⟨p', h, hp, -⟩ := simdForEach_run (c := c) f d hw fuel data 0 st hlen (by omega) hfuel
    (Or.inl rfl)
  rw [List.drop_zero, mapRun_of_callAll f st st' _ us hf] at h hp
  rw [simdIter, h, hp st' rfl]
  simp [forEachData]

/-- **C10.** Lane-wise closure: the slice becomes the scalar map of its old
contents; no panic, no out-of-bounds access, in any build. -/
theorem C10_for_each {α : Type} [Packable α] {w : Nat} (c : Cfg) (fuel : Nat)
    (data : List α) (d : Vector α w) (g : α → α)
    (hw : 0 < w) (hlen : data.length + w < c.usize) (hfuel : data.length / w < fuel) :
    simdForEach c fuel () (pureFn (Vector.map g)) (simdIter data d) =
      (ok (), ⟨data.length, ⟨data.map g⟩, d⟩) := by
  rw [C10_for_each_any_closure c fuel data d () () _ _ hw hlen hfuel (callAll_pure _ _),
    unpad_map, unpad_calls hw]

example : simdForEach release64 9 () (pureFn (Vector.map (· * 3#16)))
    (simdIter (w := 4) [1#16, 2, 3, 4, 5, 6] (Vector.replicate 4 7#16)) =
      (ok (), ⟨6, ⟨[3, 6, 9, 12, 15, 18]⟩, Vector.replicate 4 7#16⟩) :=
  C10_for_each release64 9 _ _ _ (by decide) (by decide) (by decide)

/-! ### C12 -/

theorem mapRun_panic_at {σ β γ : Type} (f : FnMut σ β γ) (st st' : σ) (vs : List β) (us : List γ)
    (k : Nat) (v : β) (hk : vs[k]? = some v) (h : callAll f st (vs.take k) = ok (us, st'))
    (hp : f st' v = panic) : mapRun f st vs = (us, panic) := by
  have hlt : k < vs.length := by
    rcases Nat.lt_or_ge k vs.length with h | h
    · exact h
    · rw [List.getElem?_eq_none h] at hk; cases hk
  have e : vs = vs.take k ++ v :: vs.drop (k + 1) := by
    have h1 := List.take_append_drop k vs
    rw [List.drop_eq_getElem_cons hlt] at h1
    rw [List.getElem?_eq_getElem hlt, Option.some.injEq] at hk
    rw [← hk]; exact h1.symm
  rw [e, mapRun_append, mapRun_of_callAll f st st' _ us h]
  simp [mapRun, hp, castFail]

/-- **C12.** If the closure panics at call `k` (counted from 0), `simd_for_each`
panics, the windows of the earlier calls hold the closure's outputs, every
element from window `k` on is unchanged, and the iterator stands behind window `k`. -/
theorem C12_for_each_panic {α σ : Type} [Packable α] {w : Nat} (c : Cfg) (fuel : Nat)
    (data : List α) (d : Vector α w) (st st' : σ) (f : FnMut σ (Vector α w) (Vector α w))
    (us : List (Vector α w)) (k : Nat) (v : Vector α w)
    (hw : 0 < w) (hlen : data.length + w < c.usize) (hfuel : data.length / w < fuel)
    (hk : (calls w d data)[k]? = some v)
    (hf : callAll f st ((calls w d data).take k) = ok (us, st'))
    (hp : f st' v = panic) :
    simdForEach c fuel st f (simdIter data d) =
      (panic, ⟨min ((k + 1) * w) data.length, ⟨lanes us ++ data.drop (k * w)⟩, d⟩) := by
  obtain ⟨p', h, -, h'⟩ := simdForEach_run (c := c) f d hw fuel data 0 st hlen (by omega) hfuel
    (Or.inl rfl)
  rw [List.drop_zero, mapRun_panic_at f st st' _ us k v hk hf hp] at h h'
  rw [simdIter, h, h' (by simp)]
  have h1 := callAll_length f st _ hf
  have h2 : k < (calls w d data).length := by
    rcases Nat.lt_or_ge k (calls w d data).length with h | h
    · exact h
    · rw [List.getElem?_eq_none h] at hk; cases hk
  rw [List.length_take, Nat.min_eq_left (by omega)] at h1
  simp only [forEachData, splice_zero, lanes_length, h1, Nat.zero_add]

-- the closure panics at the second window
example : simdForEach debug64 9 0 (fun n v => if n = 1 then panic else ok (v.map (· + 1#8), n + 1))
    (simdIter (w := 2) [1#8, 2, 3, 4, 5] #v[0#8, 0]) =
      (panic, ⟨4, ⟨[2, 3, 3, 4, 5]⟩, #v[0, 0]⟩) := by decide +kernel

/-! ### C11 -/

/-- Storing at an underflowed offset panics: `usub` panics in debug builds and
`&data[offset..]` in release builds. -/
theorem store_underflow {α : Type} {w : Nat} {c : Cfg} {data : List α} {p a b : Nat}
    {d v : Vector α w} (h : a < b) (hu : data.length + b < c.usize) (hb : b ≤ c.usize) :
    (do SIMDIter.dataStoreUnchecked c v (← usub c a b)
          (⟨p, ⟨data⟩, d⟩ : SIMDIter (Slice α w) α w)) = panic := by
  have h1 : ¬ b ≤ a := by omega
  simp only [usub, h1, if_false]
  cases hd : c.debug
  · have h2 : (c.usize + a - b) % c.usize = c.usize + a - b := Nat.mod_eq_of_lt (by omega)
    simp only [Bool.false_eq_true, if_false, ok_bind, h2, SIMDIter.dataStoreUnchecked,
      SIMDArrayMut.storeUnchecked, Packed.storeUnchecked, hd, sliceFrom,
      show ¬ (c.usize + a - b ≤ data.length) by omega, panic_bind]
  · simp

/-- Exact behaviour of `simd_for_each` in the remaining case: elements were
consumed before, some but no full vector are left, and the slice is
longer than a vector (so `0 < p`). With `n` the number of default lanes and `u` the closure's
output on the padded rest:

* `p < n`: panics, slice unchanged;
* `n ≤ p < w`: panics after the first `n` lanes of `u` clobbered consumed elements;
* `w ≤ p`: succeeds, but the `w` elements before `p`, already consumed, are
  overwritten with zeros. -/
theorem C11_for_each_consumed {α σ : Type} [Packable α] {w : Nat} (c : Cfg) (fuel : Nat)
    (data : List α) (d u : Vector α w) (st st' : σ) (f : FnMut σ (Vector α w) (Vector α w)) (p : Nat)
    (hw : 0 < w) (hlen : data.length + w < c.usize) (hfuel : 0 < fuel)
    (hp : p < data.length) (hpw : data.length < p + w) (hdw : w < data.length)
    (hf : f st (padFront d (data.drop p)) = ok (u, st')) :
    simdForEach c fuel st f (⟨p, ⟨data⟩, d⟩ : SIMDIter (Slice α w) α w) =
      if p < w - (data.length - p) then
        (panic, ⟨data.length, ⟨data⟩, d⟩)
      else if p < w then
        (panic, ⟨data.length, ⟨splice data (p - (w - (data.length - p))) u.toList⟩, d⟩)
      else
        (ok st', ⟨data.length, ⟨data.take (p - w) ++ List.replicate w Packable.zero ++
          u.toList.drop (w - (data.length - p))⟩, d⟩) := by
  simp only [simdForEach, run_bind]
  have hq : (data.length - p) / w = 0 := Nat.div_eq_of_lt (by omega)
  rw [forEachLoop_run (mutRep_slice c) f d hw fuel data p _ st hlen (by omega) (by omega),
    fullWindows_short (by simp; omega)]
  simp only [mapRun, ok_bind, run_get, run_lift, SIMDIterable.scalarPos, run_call, failCount,
    List.length_nil, Nat.add_zero, Nat.zero_mul, lanes_nil, splice_nil]
  rw [simdIter_end_exact (represents_slice c data) p d hlen, if_neg (by omega), if_neg (by omega),
    if_neg (by omega)]
  simp only [run_bind, run_lift, hf, run_get, SIMDSized.scalarLen, hdw, if_true]
  simp only [run_modify]
  by_cases h1 : p < w - (data.length - p)
  · rw [if_pos h1, store_underflow h1 (by omega) (by omega)]
  · rw [if_neg h1, usub_ok (show w - (data.length - p) ≤ p by omega)]
    simp only [ok_bind]
    rw [dataStore_ok (mutRep_slice c) (by omega)]
    simp only []
    have hl : (splice data (p - (w - (data.length - p))) u.toList).length = data.length :=
      splice_length _ _ _ (by simp; omega)
    by_cases h2 : p < w
    · rw [if_pos h2, store_underflow h2 (by omega) (by omega)]
    · rw [if_neg h2, usub_ok (show w ≤ p by omega)]
      simp only [ok_bind]
      rw [dataStore_ok (mutRep_slice c) (by omega)]
      simp only [run_pure]
      refine Prod.ext rfl ?_
      simp only [SIMDIter.mk.injEq, Slice.mk.injEq, and_true, true_and]
      have hz : (List.getLastD [] (Packed.default : Vector α w)).toList =
          List.replicate w Packable.zero := by
        simp [Packed.default, Packed.splat]
      rw [hz, splice, splice_take_before _ _ _ _ (by simp; omega) (by omega), List.length_replicate,
        show p - w + w = p by omega]
      congr 1
      apply List.ext_getElem?
      intro i
      rw [List.getElem?_drop, List.getElem?_drop, splice_getElem? _ _ _ (by simp; omega),
        if_neg (by omega), Vector.length_toList]
      split
      · congr 1; omega
      · rw [List.getElem?_eq_none (by omega), List.getElem?_eq_none (by simp; omega)]

/-- **C11 is false**: after consuming two vectors of a slice of five elements,
`simd_for_each` zeroes two consumed elements. -/
theorem C11_false : ∃ (data : List (BitVec 32)) (p : Nat), p < data.length ∧
    ∃ it', simdForEach release64 9 () (pureFn (Vector.map (· + 1#32)))
      (⟨p, ⟨data⟩, #v[0, 0]⟩ : SIMDIter (Slice (BitVec 32) 2) (BitVec 32) 2) = (ok (), it') ∧
      it'.data.elems.take p ≠ data.take p :=
  ⟨[1, 2, 3, 4, 5], 4, by decide, ⟨5, ⟨[1, 2, 0, 0, 6]⟩, #v[0, 0]⟩, by
    rw [C11_for_each_consumed (st' := ()) release64 9 _ _ #v[1, 6] _ _ 4 (by decide) (by decide) (by decide)
      (by decide) (by decide) (by decide) (by decide +kernel)]
    rfl, by decide⟩

/-- **C11**, the part which holds: if at least one full vector, or nothing, is
left, exactly the remaining elements are mapped. Missing: a rest shorter than a
vector after consumed elements, where the property is false
(`C11_for_each_consumed`, and `C13` for slices of at most one vector). -/
theorem C11_for_each_remaining_partial {α : Type} [Packable α] {w : Nat} (c : Cfg) (fuel : Nat)
    (data : List α) (d : Vector α w) (g : α → α) (p : Nat)
    (hw : 0 < w) (hlen : data.length + w < c.usize) (hp : p + w < c.usize)
    (hfuel : data.length / w < fuel)
    (hrest : p + w ≤ data.length ∨ data.length ≤ p) :
    simdForEach c fuel () (pureFn (Vector.map g)) (⟨p, ⟨data⟩, d⟩ : SIMDIter (Slice α w) α w) =
      (ok (), ⟨max p data.length, ⟨data.take p ++ (data.drop p).map g⟩, d⟩) := by
  obtain ⟨p', h, h2, -⟩ := simdForEach_run (c := c) (pureFn (Vector.map g)) d hw fuel data p () hlen hp
    hfuel (Or.inr hrest)
  rw [mapRun_pure] at h h2
  rw [h, h2 () rfl]
  simp only [forEachData]
  have hd : data.length - p = (data.drop p).length := by simp
  rw [hd, unpad_map, unpad_calls hw]

example : simdForEach debug64 9 () (pureFn (Vector.map (· + 1#32)))
    (⟨1, ⟨[1, 2, 3, 4]⟩, #v[0, 0]⟩ : SIMDIter (Slice (BitVec 32) 2) (BitVec 32) 2) =
      (ok (), ⟨4, ⟨[1, 3, 4, 5]⟩, #v[0, 0]⟩) :=
  C11_for_each_remaining_partial debug64 9 _ _ _ 1 (by decide) (by decide) (by decide) (by decide)
    (Or.inl (by decide))

end Faster
