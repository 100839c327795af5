import Verif.Props.EndToEnd
/-
C93: the two programs which the documentation gives as examples of code that is
not portable (src/lib.rs:154-192): what exactly they compute, as a function of
the vector width.
-/
namespace Faster
open Res SIMDSized SIMDIterable SIMDIterator

/-- The state of a closure after `k` calls, if each call applies `next`. -/
def stateAt {σ : Type} (next : σ → σ) (st : σ) : Nat → σ
  | 0 => st
  | k + 1 => stateAt next (next st) k

theorem callAll_mapIdx {σ α β : Type} {w : Nat} {f : FnMut σ (Vector α w) (Vector β w)}
    {next : σ → σ} {g : σ → α → β} (hf : ∀ st v, f st v = ok (v.map (g st), next st)) (st : σ)
    (vs : List (Vector α w)) : callAll f st vs =
      ok (vs.mapIdx fun k v => v.map (g (stateAt next st k)), stateAt next st vs.length) := by
  induction vs generalizing st with
  | nil => rfl
  | cons v vs ih => simp [callAll, hf, ih, List.mapIdx_cons, stateAt]

theorem toList_mapIdx_block {α β : Type} {w : Nat} (G : Nat → α → β) (n : Nat) (l : List α)
    (hl : l.length ≤ w) : l.mapIdx (fun i x => G ((i + n * w) / w) x) = l.map (G n) := by
  apply List.ext_getElem
  · simp
  · intro i h1 h2
    have hi : i < w := by simp at h1; omega
    simp only [List.getElem_mapIdx, List.getElem_map]
    rw [Nat.add_mul_div_right _ _ (by omega), Nat.div_eq_of_lt hi, Nat.zero_add]

theorem lanes_mapIdx {α β : Type} {w : Nat} (hw : 0 < w) (G : Nat → α → β)
    (us : List (Vector α w)) :
    lanes (us.mapIdx fun k v => v.map (G k)) = (lanes us).mapIdx fun i x => G (i / w) x := by
  induction us generalizing G with
  | nil => rfl
  | cons u us ih =>
    have h := ih (fun k => G (k + 1))
    rw [List.mapIdx_cons]
    simp only [lanes, List.flatMap_cons] at h ⊢
    rw [List.mapIdx_append, h, Vector.toList_map]
    congr 1
    · have := toList_mapIdx_block (w := w) G 0 u.toList (by simp)
      simpa using this.symm
    · congr 1
      funext i x
      rw [Vector.length_toList, Nat.add_div_right _ hw]

theorem unpad_mapIdx {α β : Type} {w : Nat} (hw : 0 < w) (G : Nat → α → β) (pad : Nat)
    (us : List (Vector α w)) :
    unpad pad (us.mapIdx fun k v => v.map (G k)) = (unpad pad us).mapIdx fun i x => G (i / w) x := by
  rcases List.eq_nil_or_concat us with rfl | ⟨us, u, rfl⟩
  · rfl
  · rw [List.concat_eq_append, List.mapIdx_concat, unpad_concat, unpad_concat, List.mapIdx_append,
      lanes_mapIdx hw, Vector.toList_map, ← List.map_drop, lanes_length,
      toList_mapIdx_block G us.length _ (by simp)]

/-- **C93**, impure maps: if the closure is lane-wise but uses a state which
changes with every call, element `i` of the result is computed in the state after
`i / w` calls. -/
theorem C93_impure_map {α β σ : Type} [Packable α] [Packable β] {w : Nat} (c : Cfg) (fuel : Nat)
    (data : List α) (d : Vector α w) (st : σ) (f : FnMut σ (Vector α w) (Vector β w))
    (next : σ → σ) (g : σ → α → β) (hf : ∀ st v, f st v = ok (v.map (g st), next st))
    (hw : 0 < w) (hs : 0 < Packable.size β) (hsize : Packable.size α = Packable.size β)
    (hlen : data.length + w < c.usize) (hvec : w * Packable.size α < c.usize)
    (hfuel : data.length / w < fuel) :
    (do
      let (_, out) ← scalarCollect c fuel (simdMap (simdIter data d) st f)
      ok out) = ok (data.mapIdx fun i x => some (g (stateAt next st (i / w)) x)) := by
  have h5 := Nat.div_mul_le_self data.length w
  rw [C05_collect_any_closure c fuel data d st f hw hw hs (by rw [hsize]) hlen
    (by rw [Nat.succ_mul]; omega) hvec hfuel, callAll_mapIdx hf]
  simp only [ok_bind]
  rw [hsize, Nat.mul_div_cancel _ hs, unpad_mapIdx hw (fun k => g (stateAt next st k)),
    unpad_calls hw]
  congr 1
  apply List.ext_getElem <;> simp

/-- The closure of the documentation's first example
(src/lib.rs:174): `|v| { flip = !flip; if flip { v + i8s(1) } else { v } }`.
Simplified: the sum wraps, as vector addition does. -/
def flipClosure {n w : Nat} : FnMut Bool (Vector (BitVec n) w) (Vector (BitVec n) w) :=
  fun flip v =>
    let flip := !flip
    ok (if flip then v.zipWith (· + ·) (Packed.splat 1) else v, flip)

/-- **C93**, the documentation's first example (src/lib.rs:172-178): the groups of
`w` elements are unchanged and incremented in turn, starting with unchanged. -/
theorem C93_flip {n w : Nat} (c : Cfg) (fuel : Nat) (data : List (BitVec n)) (hn : 8 ≤ n)
    (hw : 0 < w) (hlen : data.length + w < c.usize) (hvec : w * (n / 8) < c.usize)
    (hfuel : data.length / w < fuel) :
    (do
      let (_, out) ← scalarCollect c fuel
        (simdMap (simdIter data (Packed.splat 0)) true (flipClosure (w := w)))
      ok out) = ok (data.mapIdx fun i x => some (if i / w % 2 = 0 then x else x + 1)) := by
  have key : ∀ k b, stateAt not b k = if k % 2 = 0 then b else !b := by
    intro k
    induction k with
    | zero => intro b; rfl
    | succ k ih =>
      intro b
      rw [stateAt, ih]
      rcases Nat.mod_two_eq_zero_or_one k with h | h
      · rw [if_pos h, if_neg (by omega)]
      · rw [if_neg (by omega), if_pos (by omega), Bool.not_not]
  rw [C93_impure_map c fuel data (Packed.splat 0) true flipClosure not
    (fun b x => if b then x else x + 1) ?_ hw (show 0 < n / 8 by omega) rfl hlen hvec hfuel]
  · congr 2
    funext i x
    rw [key]
    split <;> simp
  · intro st v
    cases st with
    | true => simp [flipClosure]
    | false =>
      simp only [flipClosure, Bool.not_false, if_true, Bool.false_eq_true, if_false]
      congr 2
      ext i hi
      simp [Packed.splat]

theorem foldl_add_one {n w : Nat} (vs : List (Vector (BitVec n) w)) (a : Vector (BitVec n) w) :
    vs.foldl (fun acc v => (acc.zipWith (· + ·) v).zipWith (· + ·) (Packed.splat 1)) a =
      (vs.foldl (fun acc v => acc.zipWith (· + ·) v) a).zipWith (· + ·)
        (Packed.splat (BitVec.ofNat n vs.length)) := by
  induction vs generalizing a with
  | nil =>
    apply Vector.ext
    intro i hi
    simp [Packed.splat]
  | cons v vs ih =>
    rw [List.foldl_cons, ih, List.foldl_cons]
    have h : ∀ (us : List (Vector (BitVec n) w)) (a b : Vector (BitVec n) w),
        us.foldl (fun acc v => acc.zipWith (· + ·) v) (a.zipWith (· + ·) b) =
        (us.foldl (fun acc v => acc.zipWith (· + ·) v) a).zipWith (· + ·) b := by
      intro us
      induction us with
      | nil => intros; rfl
      | cons u us ih =>
        intro a b
        rw [List.foldl_cons, List.foldl_cons, ← ih]
        congr 1
        apply Vector.ext
        intro i hi
        simp only [Vector.getElem_zipWith, BitVec.add_assoc, BitVec.add_comm b[i]]
    rw [h]
    apply Vector.ext
    intro i hi
    simp only [Vector.getElem_zipWith, Packed.splat, Vector.getElem_replicate, List.length_cons]
    rw [BitVec.add_assoc]
    congr 1
    apply BitVec.eq_of_toNat_eq
    simp [Nat.add_comm]

theorem calls_length {α : Type} {w : Nat} (hw : 0 < w) (d : Vector α w) (l : List α) :
    (calls w d l).length = (l.length + w - 1) / w := by
  have h := Nat.div_add_mod l.length w
  have hm := Nat.mod_lt l.length hw
  simp only [calls, List.length_append, fullWindows_length]
  by_cases h0 : l.length % w = 0
  · rw [if_pos h0]
    have : l.length + w - 1 = (w - 1) + w * (l.length / w) := by omega
    rw [this, Nat.add_mul_div_left _ _ hw, Nat.div_eq_of_lt (show w - 1 < w by omega)]
    simp
  · rw [if_neg h0]
    have : l.length + w - 1 = (l.length % w - 1) + w * (l.length / w + 1) := by
      rw [Nat.mul_succ]; omega
    rw [this, Nat.add_mul_div_left _ _ hw,
      Nat.div_eq_of_lt (show l.length % w - 1 < w by omega)]
    simp

/-- **C93**, the documentation's second example (src/lib.rs:187-188):
`simd_reduce(splat(0), |acc, v| acc + v + splat(1)).sum()` is the sum of the
elements plus the number of elements rounded up to a multiple of the width. -/
theorem C93_length_dependent {n w : Nat} {signed : Bool}
    {F : Vector (BitVec n) w → Res (BitVec n)} (hF : SumOp signed F) (c : Cfg) (fuel : Nat)
    (data : List (BitVec n)) (hw : 0 < w) (hlen : data.length + w < c.usize)
    (hfuel : data.length / w < fuel) :
    (do
      let (_, acc, _) ← simdReduce c fuel (simdIter (w := w) data (Packed.splat 0))
        (Packed.splat 0) () (fun _ acc v =>
          ok ((acc.zipWith (· + ·) v).zipWith (· + ·) (Packed.splat 1), ()))
      F acc) = ok (BitVec.ofInt n
        ((data.map (num signed)).sum + ((data.length + w - 1) / w * w : Nat))) := by
  have h1 := C71_sum hF c fuel data hw hlen hfuel
  rw [C03_reduce_foldl c fuel data (Packed.splat 0) (Packed.splat 0)
    (fun (acc v : Vector (BitVec n) w) => acc.zipWith (· + ·) v) hw hlen hfuel] at h1
  rw [C03_reduce_foldl c fuel data (Packed.splat 0) (Packed.splat 0)
    (fun (acc v : Vector (BitVec n) w) => (acc.zipWith (· + ·) v).zipWith (· + ·) (Packed.splat 1))
    hw hlen hfuel, foldl_add_one, calls_length hw]
  simp only [ok_bind] at h1 ⊢
  rw [hF] at h1 ⊢
  generalize (calls w (Packed.splat (0 : BitVec n)) data).foldl
    (fun acc v => acc.zipWith (· + ·) v) (Packed.splat (0 : BitVec n)) = acc at h1 ⊢
  simp only [ok.injEq] at h1 ⊢
  have hs : ∀ l : List (BitVec n), BitVec.ofInt n (l.map (num signed)).sum = l.sum := by
    intro l
    apply sum_ofInt
    intro x
    cases signed
    · exact Kind.ofInt_value .u x
    · exact Kind.ofInt_value .i x
  rw [BitVec.ofInt_add, ← h1, hs, hs]
  have hc : ∀ (l : List (BitVec n)) (k : Nat),
      (l.map (· + BitVec.ofNat n k)).sum = l.sum + BitVec.ofNat n (k * l.length) := by
    intro l k
    induction l with
    | nil => simp
    | cons x l ih =>
      rw [List.map_cons, List.sum_cons, ih, List.sum_cons, List.length_cons, Nat.mul_succ,
        ← BitVec.ofNat_add_ofNat]
      simp only [BitVec.add_assoc]
      congr 1
      rw [← BitVec.add_assoc, BitVec.add_comm (BitVec.ofNat n k), BitVec.add_assoc]
      congr 1
      exact BitVec.add_comm _ _
  have ht : (acc.zipWith (· + ·) (Packed.splat (BitVec.ofNat n ((data.length + w - 1) / w)))).toList =
      acc.toList.map (· + BitVec.ofNat n ((data.length + w - 1) / w)) := by
    apply List.ext_getElem
    · simp
    · intro i h1 h2
      simp [Packed.splat]
  rw [ht, hc, Vector.length_toList, BitVec.ofInt_natCast]

/-- On a target with two lanes and on one with four lanes. -/
example : (do
      let (_, out) ← scalarCollect release64 9
        (simdMap (simdIter [1#8, 1, 1, 1, 1] (Packed.splat 0)) true (flipClosure (w := 2)))
      ok out) = ok [some 1, some 1, some 2, some 2, some 1] ∧
    (do
      let (_, out) ← scalarCollect release64 9
        (simdMap (simdIter [1#8, 1, 1, 1, 1] (Packed.splat 0)) true (flipClosure (w := 4)))
      ok out) = ok [some 1, some 1, some 1, some 1, some 2] := by decide +kernel

/-- **C93**: the result of the documentation's second example is 16 on targets
with 16 lanes and 32 on targets with 32 lanes. -/
theorem C93_not_portable :
    (do
      let (_, acc, _) ← simdReduce release64 10 (simdIter (w := 16) (List.replicate 10 0#8)
        (Packed.splat 0)) (Packed.splat 0) () (fun _ acc v =>
          ok ((acc.zipWith (· + ·) v).zipWith (· + ·) (Packed.splat 1), ()))
      sumFallback release64 .i acc) = ok 16#8 ∧
    (do
      let (_, acc, _) ← simdReduce release64 10 (simdIter (w := 32) (List.replicate 10 0#8)
        (Packed.splat 0)) (Packed.splat 0) () (fun _ acc v =>
          ok ((acc.zipWith (· + ·) v).zipWith (· + ·) (Packed.splat 1), ()))
      sumFallback release64 .i acc) = ok 32#8 := by
  constructor
  · rw [C93_length_dependent (C41_fallback_release _ rfl .i) _ _ _ (by decide) (by decide)
      (by decide)]
    decide +kernel
  · rw [C93_length_dependent (C41_fallback_release _ rfl .i) _ _ _ (by decide) (by decide)
      (by decide)]
    decide +kernel

end Faster
