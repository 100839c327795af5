import Verif.Props.ReduceDoc
import Verif.Props.Product
import Verif.Props.SliceSum
/-
C160 and C162, exactly: which totals of lanes `product` and `sum` combine, so which overflows a debug build
notices.
-/
namespace Faster
open Res

variable {n w : Nat} {c : Cfg} {k : Kind}

/-- The vector of the totals of the lanes: lane `j` combines the elements `actualLane` lists, modulo `2^n`. -/
def laneTotals (op : BitVec n → BitVec n → BitVec n) (e : BitVec n) (w : Nat) (data : List (BitVec n)) :
    Vector (BitVec n) w :=
  Vector.ofFn fun j => (actualLane w (Packed.splat e : Vector (BitVec n) w) data j j.isLt).foldl op e

/-- **C162**, exactly: for every slice, version of `sum` and build. -/
theorem C162_exact (F : Vector (BitVec n) w → Res (BitVec n)) (hw : 0 < w) (fuel : Nat) (data : List (BitVec n))
    (hlen : data.length + w < c.usize) (hfuel : data.length / w < fuel) :
    sliceSum c fuel F data = F (laneTotals (· + ·) 0 w data) := by
  obtain ⟨acc, h1, h2⟩ := C141_lane c fuel data (Packed.splat 0 : Vector (BitVec n) w) (Packed.splat 0)
    (· + ·) hw hlen hfuel
  have e : acc = laneTotals (· + ·) 0 w data := by
    apply Vector.ext
    intro j hj
    rw [h2 j hj]
    simp [laneTotals, Packed.splat]
  unfold sliceSum
  rw [h1]
  simp only [ok_bind, e]

/-- **C160**, exactly: the lanes are multiplied in order, with checks in debug builds. -/
theorem C160_exact (hw : 0 < w) (fuel : Nat) (data : List (BitVec n)) (hlen : data.length + w < c.usize)
    (hfuel : data.length / w < fuel) :
    sliceProduct c fuel k w data = (laneTotals (· * ·) 1 w data).toList.foldlM (mulInt c k) 1 := by
  obtain ⟨acc, h1, h2⟩ := C141_lane c fuel data (Packed.splat 1 : Vector (BitVec n) w) (Packed.splat 1)
    (· * ·) hw hlen hfuel
  have e : acc = laneTotals (· * ·) 1 w data := by
    apply Vector.ext
    intro j hj
    rw [h2 j hj]
    simp [laneTotals, Packed.splat]
  unfold sliceProduct
  rw [h1]
  simp only [ok_bind, e]
  rw [Packed.product, scalarReduceLoop_ok _ _ w 0 1 (by omega), List.drop_zero]

/-- Checked products return exactly if all products from the front are in range. -/
theorem mulInt_fold_iff (hd : c.debug = true) (h0 : 0 < n) (l : List (BitVec n)) : ∀ a : BitVec n,
    l.foldlM (mulInt c k) a = ok (l.foldl (· * ·) a) ↔
      ∀ j ≤ l.length, k.lo n ≤ k.value a * ((l.take j).map k.value).prod ∧
        k.value a * ((l.take j).map k.value).prod ≤ k.hi n := by
  have hrange (x : BitVec n) : k.lo n ≤ k.value x ∧ k.value x ≤ k.hi n := Kind.value_bounds k h0 x
  induction l with
  | nil =>
    intro a
    simp only [List.foldlM_nil, List.foldl_nil, List.length_nil, List.take_nil, List.map_nil, List.prod_nil,
      Int.mul_one]
    exact ⟨fun _ _ _ => hrange a, fun _ => rfl⟩
  | cons x l ih =>
    intro a
    rw [List.foldlM_cons, List.foldl_cons]
    have hm : mulInt c k a x = if k.lo n ≤ k.value a * k.value x ∧ k.value a * k.value x ≤ k.hi n
        then ok (a * x) else Res.panic := by
      unfold mulInt overflowCheck
      simp [hd]
    by_cases h : k.lo n ≤ k.value a * k.value x ∧ k.value a * k.value x ≤ k.hi n
    · have hv : k.value (a * x) = k.value a * k.value x := by
        have e : a * x = BitVec.ofInt n (k.value a * k.value x) := by
          rw [BitVec.ofInt_mul, Kind.ofInt_value, Kind.ofInt_value]
        rw [e, Kind.value_ofInt _ h0 h]
      rw [hm, if_pos h]
      refine Iff.trans (ih (a * x)) ?_
      rw [hv]
      constructor
      · intro h1 j hj
        cases j with
        | zero => simpa using hrange a
        | succ j =>
          have := h1 j (by simpa using hj)
          rw [List.take_succ_cons, List.map_cons, List.prod_cons, ← Int.mul_assoc]
          exact this
      · intro h1 j hj
        have := h1 (j + 1) (by simpa using hj)
        rw [List.take_succ_cons, List.map_cons, List.prod_cons, ← Int.mul_assoc] at this
        exact this
    · rw [hm, if_neg h]
      refine ⟨fun h1 => (by cases h1), fun h1 => absurd ?_ h⟩
      have := h1 1 (by simp)
      simpa using this

/-- **C160**, debug builds: the program returns exactly if the products of the first lanes, as numbers, are all
in range, and otherwise panics. -/
theorem C160_debug_iff (hd : c.debug = true) (h0 : 1 < n) (hk : k ≠ .f) (hw : 0 < w) (fuel : Nat)
    (data : List (BitVec n)) (hlen : data.length + w < c.usize) (hfuel : data.length / w < fuel) :
    sliceProduct c fuel k w data ≠ Res.panic ↔
      ∀ j ≤ w, k.lo n ≤ (((laneTotals (· * ·) 1 w data).toList.take j).map k.value).prod ∧
        (((laneTotals (· * ·) 1 w data).toList.take j).map k.value).prod ≤ k.hi n := by
  have h1 : k.value (1 : BitVec n) = 1 := by
    have h2 : 2 ^ 1 < 2 ^ n := Nat.pow_lt_pow_right (by omega) h0
    have : (1 : BitVec n).toNat = 1 := by
      show 1 % 2 ^ n = 1
      exact Nat.mod_eq_of_lt (by omega)
    cases k with
    | u => simp only [Kind.value, this]; rfl
    | i =>
      simp only [Kind.value]
      rw [BitVec.toInt_eq_toNat_of_lt (by rw [this]; omega), this]; rfl
    | f => exact absurd rfl hk
  have h2 := mulInt_fold_iff (c := c) (k := k) hd (by omega) (laneTotals (· * ·) 1 w data).toList 1
  rw [h1] at h2
  simp only [Int.one_mul, Vector.length_toList] at h2
  rw [C160_exact hw fuel data hlen hfuel, ← h2]
  rcases mulInt_fold (c := c) (k := k) (laneTotals (· * ·) 1 w data).toList 1 with h | ⟨-, h⟩
  · rw [h]; simp
  · rw [h]; simp

/-- Lane products of six elements and four lanes, and both outcomes. -/
example : laneTotals (· * ·) 1 4 [2#8, 3#8, 5#8, 7#8, 11#8, 13#8] = #v[2, 3, 55, 91] := by decide +kernel

example : sliceProduct debug64 9 .u 4 [2#8, 3#8, 5#8, 7#8, 11#8, 13#8] = Res.panic ∧
    sliceProduct debug64 9 .u 4 [2#8, 3#8, 1#8, 7#8, 1#8, 1#8] = ok 42#8 := by
  constructor <;> decide +kernel

end Faster
