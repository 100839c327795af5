import Verif.Props.CountEqual
import Verif.Props.Vec
import Mathlib.Algebra.BigOperators.Group.List.Basic
/-
C160: products of slices.
-/
namespace Faster
open Res

variable {n w : Nat} {c : Cfg} {k : Kind}

/-- `slice.simd_iter(splat(1)).simd_reduce(splat(1), |acc, v| acc * v).product()`: native vectors multiply
modulo `2^n` in all builds, `product` multiplies scalars (src/vecs.rs:175-181). -/
def sliceProduct (c : Cfg) (fuel : Nat) (k : Kind) (w : Nat) (data : List (BitVec n)) : Res (BitVec n) := do
  let (_, acc, _) ← simdReduce c fuel (simdIter data (Packed.splat 1 : Vector (BitVec n) w)) (Packed.splat 1)
    () fun _ (acc : Vector (BitVec n) w) v => ok (acc.zipWith (· * ·) v, ())
  Packed.product 1 (mulInt c k) acc

/-- Products modulo `2^n` are what is returned, if anything is. -/
theorem mulInt_fold (l : List (BitVec n)) : ∀ a : BitVec n,
    l.foldlM (mulInt c k) a = ok (l.foldl (· * ·) a) ∨ (c.debug = true ∧ l.foldlM (mulInt c k) a = Res.panic) := by
  induction l with
  | nil => intro a; exact .inl rfl
  | cons x l ih =>
    intro a
    have h : mulInt c k a x = ok (a * x) ∨ (c.debug = true ∧ mulInt c k a x = Res.panic) := by
      unfold mulInt overflowCheck
      split
      · exact .inl rfl
      · by_cases hd : c.debug = true
        · right; simp [hd]
        · left; simp [hd]
    rw [List.foldlM_cons, List.foldl_cons]
    rcases h with h | ⟨hd, h⟩
    · rw [h]; exact ih (a * x)
    · right; rw [h]; exact ⟨hd, rfl⟩

/-- The accumulator of the pass. -/
theorem product_acc (hw : 0 < w) (fuel : Nat) (data : List (BitVec n)) (hlen : data.length + w < c.usize)
    (hfuel : data.length / w < fuel) :
    sliceProduct c fuel k w data = ((calls w (Packed.splat 1) data).foldl
      (fun (acc : Vector (BitVec n) w) v => acc.zipWith (· * ·) v) (Packed.splat 1)).toList.foldlM
        (mulInt c k) 1 ∧
    ((calls w (Packed.splat 1) data).foldl (fun (acc : Vector (BitVec n) w) v => acc.zipWith (· * ·) v)
      (Packed.splat 1)).toList.foldl (· * ·) 1 = data.foldl (· * ·) 1 := by
  have h1 := C03_reduce_foldl c fuel data (Packed.splat 1) (Packed.splat 1)
    (fun (acc v : Vector (BitVec n) w) => acc.zipWith (· * ·) v) hw hlen hfuel
  constructor
  · unfold sliceProduct
    rw [h1]
    simp only [ok_bind]
    rw [Packed.product, scalarReduceLoop_ok _ _ w 0 1 (by omega), List.drop_zero]
  · have h2 := C04_monoid_reduce (w := w) c fuel data (· * ·) (1 : BitVec n) BitVec.mul_assoc BitVec.mul_comm
      BitVec.one_mul hw hlen hfuel
    rw [h1] at h2
    simp only [ok_bind, Packed.scalarReduce] at h2
    rw [scalarReduceLoop_ok _ _ w 0 1 (by omega), List.drop_zero, foldlM_ok] at h2
    exact Res.ok.inj h2

/-- **C160**: the product modulo `2^n`, unless a debug build panics. -/
theorem C160_wrapped (hw : 0 < w) (fuel : Nat) (data : List (BitVec n)) (hlen : data.length + w < c.usize)
    (hfuel : data.length / w < fuel) :
    sliceProduct c fuel k w data = ok (data.foldl (· * ·) 1) ∨
      (c.debug = true ∧ sliceProduct c fuel k w data = Res.panic) := by
  obtain ⟨h1, h2⟩ := product_acc (c := c) (k := k) hw fuel data hlen hfuel
  rw [h1, ← h2]
  exact mulInt_fold _ 1

/-- **C160**: release builds return the product modulo `2^n`, as a loop does. -/
theorem C160_release (hc : c.debug = false) (hw : 0 < w) (fuel : Nat) (data : List (BitVec n))
    (hlen : data.length + w < c.usize) (hfuel : data.length / w < fuel) :
    sliceProduct c fuel k w data = ok (data.foldl (· * ·) 1) ∧
      data.foldlM (mulInt c k) 1 = ok (data.foldl (· * ·) 1) := by
  constructor
  · exact (C160_wrapped (k := k) hw fuel data hlen hfuel).resolve_right fun h => by simp [hc] at h
  · exact (mulInt_fold (c := c) (k := k) data 1).resolve_right fun h => by simp [hc] at h

/-! ### Products which fit -/

/-- The size of a factor, at least one. -/
def factor (k : Kind) (x : BitVec n) : Nat := max (k.value x).natAbs 1

theorem value_mul (hk : k ≠ .f) (h0 : 0 < n) {a b : BitVec n}
    (h : (((k.value a * k.value b).natAbs : Nat) : Int) ≤ k.hi n) :
    k.value (a * b) = k.value a * k.value b ∧ k.lo n ≤ k.value a * k.value b ∧
      k.value a * k.value b ≤ k.hi n := by
  have hb : k.lo n ≤ k.value a * k.value b ∧ k.value a * k.value b ≤ k.hi n := by
    refine ⟨?_, by omega⟩
    cases k with
    | u =>
      have : 0 ≤ Kind.u.value a * Kind.u.value b := Int.mul_nonneg (by simp [Kind.value]) (by simp [Kind.value])
      simpa [Kind.lo] using this
    | i => simp only [Kind.lo, Kind.hi] at h ⊢; omega
    | f => exact absurd rfl hk
  refine ⟨?_, hb⟩
  have e : a * b = BitVec.ofInt n (k.value a * k.value b) := by
    rw [BitVec.ofInt_mul]
    congr 1
    · cases k with
      | u => simp [Kind.value]
      | i => simp [Kind.value]
      | f => exact absurd rfl hk
    · cases k with
      | u => simp [Kind.value]
      | i => simp [Kind.value]
      | f => exact absurd rfl hk
  rw [e, Kind.value_ofInt _ h0 hb]

theorem factor_pos (x : BitVec n) : 1 ≤ factor k x := by unfold factor; omega

theorem factors_pos (l : List (BitVec n)) : 1 ≤ (l.map (factor k)).prod := by
  induction l with
  | nil => simp
  | cons x l ih =>
    rw [List.map_cons, List.prod_cons]
    exact Nat.mul_le_mul (factor_pos x) ih

theorem factor_mul (hk : k ≠ .f) (h0 : 0 < n) {a b : BitVec n}
    (h : ((factor k a * factor k b : Nat) : Int) ≤ k.hi n) :
    k.value (a * b) = k.value a * k.value b ∧ factor k (a * b) ≤ factor k a * factor k b ∧
      k.lo n ≤ k.value a * k.value b ∧ k.value a * k.value b ≤ k.hi n := by
  have h1 : (k.value a * k.value b).natAbs ≤ factor k a * factor k b := by
    rw [Int.natAbs_mul]
    exact Nat.mul_le_mul (by unfold factor; omega) (by unfold factor; omega)
  obtain ⟨h2, h3⟩ := value_mul hk h0 (a := a) (b := b) (by omega)
  refine ⟨h2, ?_, h3⟩
  have h4 : 1 ≤ factor k a * factor k b := Nat.mul_le_mul (factor_pos a) (factor_pos b)
  conv => lhs; unfold factor
  rw [h2]
  omega

theorem product_zip (hk : k ≠ .f) (h0 : 0 < n) : ∀ xs ys : List (BitVec n), xs.length = ys.length →
    (((xs.map (factor k)).prod * (ys.map (factor k)).prod : Nat) : Int) ≤ k.hi n →
    ((List.zipWith (· * ·) xs ys).map k.value).prod = (xs.map k.value).prod * (ys.map k.value).prod ∧
    ((List.zipWith (· * ·) xs ys).map (factor k)).prod ≤ (xs.map (factor k)).prod * (ys.map (factor k)).prod
  | [], [], _, _ => by simp
  | x :: xs, y :: ys, hl, hB => by
    simp only [List.map_cons, List.prod_cons, List.zipWith_cons_cons] at hB ⊢
    have px := factors_pos (k := k) xs
    have py := factors_pos (k := k) ys
    have e : factor k x * (xs.map (factor k)).prod * (factor k y * (ys.map (factor k)).prod) =
        factor k x * factor k y * ((xs.map (factor k)).prod * (ys.map (factor k)).prod) := by
      rw [Nat.mul_mul_mul_comm]
    rw [e] at hB ⊢
    have h1 : factor k x * factor k y ≤
        factor k x * factor k y * ((xs.map (factor k)).prod * (ys.map (factor k)).prod) :=
      Nat.le_mul_of_pos_right _ (Nat.mul_pos px py)
    have h2 : (xs.map (factor k)).prod * (ys.map (factor k)).prod ≤
        factor k x * factor k y * ((xs.map (factor k)).prod * (ys.map (factor k)).prod) :=
      Nat.le_mul_of_pos_left _ (Nat.mul_pos (factor_pos x) (factor_pos y))
    obtain ⟨i1, i2⟩ := product_zip hk h0 xs ys (by simpa using hl) (by omega)
    obtain ⟨j1, j2, -⟩ := factor_mul hk h0 (a := x) (b := y) (by omega)
    refine ⟨?_, Nat.mul_le_mul j2 i2⟩
    rw [i1, j1, Int.mul_assoc, Int.mul_assoc]
    congr 1
    rw [Int.mul_left_comm]

theorem product_lanes (hk : k ≠ .f) (h0 : 0 < n) (vs : List (Vector (BitVec n) w)) : ∀ acc : Vector (BitVec n) w,
    ((((acc.toList.map (factor k)).prod * ((lanes vs).map (factor k)).prod : Nat)) : Int) ≤ k.hi n →
    (((vs.foldl (fun (acc : Vector (BitVec n) w) v => acc.zipWith (· * ·) v) acc).toList.map k.value).prod =
      (acc.toList.map k.value).prod * ((lanes vs).map k.value).prod) ∧
    ((vs.foldl (fun (acc : Vector (BitVec n) w) v => acc.zipWith (· * ·) v) acc).toList.map (factor k)).prod ≤
      (acc.toList.map (factor k)).prod * ((lanes vs).map (factor k)).prod := by
  induction vs with
  | nil => intro acc _; simp
  | cons v vs ih =>
    intro acc hB
    rw [lanes_cons, List.map_append, List.prod_append, ← Nat.mul_assoc] at hB
    have pv := factors_pos (k := k) (lanes vs)
    have e : (acc.zipWith (· * ·) v).toList = List.zipWith (· * ·) acc.toList v.toList := by
      apply List.ext_getElem <;> simp
    have hle := Nat.le_mul_of_pos_right ((acc.toList.map (factor k)).prod * (v.toList.map (factor k)).prod) pv
    obtain ⟨z1, z2⟩ := product_zip hk h0 acc.toList v.toList (by simp) (by omega)
    rw [← e] at z1 z2
    have hle' := Nat.mul_le_mul_right ((lanes vs).map (factor k)).prod z2
    obtain ⟨i1, i2⟩ := ih (acc.zipWith (· * ·) v) (by omega)
    rw [List.foldl_cons, lanes_cons, List.map_append, List.prod_append, List.map_append, List.prod_append]
    refine ⟨by rw [i1, z1, Int.mul_assoc], ?_⟩
    rw [← Nat.mul_assoc]
    exact Nat.le_trans i2 hle'

theorem product_scalar (hk : k ≠ .f) (h0 : 0 < n) (l : List (BitVec n)) : ∀ a : BitVec n,
    ((factor k a * (l.map (factor k)).prod : Nat) : Int) ≤ k.hi n →
    ∃ r, l.foldlM (mulInt c k) a = ok r ∧ k.value r = k.value a * (l.map k.value).prod := by
  induction l with
  | nil => intro a _; exact ⟨a, rfl, by simp⟩
  | cons x l ih =>
    intro a hB
    rw [List.map_cons, List.prod_cons, ← Nat.mul_assoc] at hB
    have pl := factors_pos (k := k) l
    have hle := Nat.le_mul_of_pos_right (factor k a * factor k x) pl
    obtain ⟨j1, j2, j3⟩ := factor_mul hk h0 (a := a) (b := x) (by omega)
    have hle' := Nat.mul_le_mul_right (l.map (factor k)).prod j2
    obtain ⟨r, h1, h2⟩ := ih (a * x) (by omega)
    refine ⟨r, ?_, by rw [h2, j1, List.map_cons, List.prod_cons, Int.mul_assoc]⟩
    rw [List.foldlM_cons]
    have : mulInt c k a x = ok (a * x) := by
      unfold mulInt overflowCheck
      rw [if_pos j3]
    rw [this]
    exact h1

/-- **C160**, partial: in both builds the exact product, if the product of the sizes of all factors, those
which are zero left out, fits. Missing: other slices in debug builds (`C160_false`). -/
theorem C160_partial (hk : k ≠ .f) (h0 : 1 < n) (hw : 0 < w) (fuel : Nat) (data : List (BitVec n))
    (hB : (((data.map (factor k)).prod : Nat) : Int) ≤ k.hi n) (hlen : data.length + w < c.usize)
    (hfuel : data.length / w < fuel) :
    ∃ r, sliceProduct c fuel k w data = ok r ∧ k.value r = (data.map k.value).prod := by
  have h1 : k.value (1 : BitVec n) = 1 := by
    have h2 : 2 ^ 1 < 2 ^ n := Nat.pow_lt_pow_right (by omega) h0
    have : (1 : BitVec n).toNat = 1 := by
      show 1 % 2 ^ n = 1
      exact Nat.mod_eq_of_lt (by omega)
    cases k with
    | u => simp only [Kind.value, this]; rfl
    | i =>
      simp only [Kind.value]
      rw [BitVec.toInt_eq_toNat_of_lt (by rw [this]; omega), this]; rfl
    | f => exact absurd rfl hk
  have hf1 : factor k (1 : BitVec n) = 1 := by unfold factor; rw [h1]; rfl
  have hr (m : Nat) : ((List.replicate m (1 : BitVec n)).map (factor k)).prod = 1 ∧
      ((List.replicate m (1 : BitVec n)).map k.value).prod = 1 := by
    rw [List.map_replicate, List.map_replicate, hf1, h1]
    simp
  have hp : (lanes (calls w (Packed.splat 1) data)).Perm (data ++ padding w (Packed.splat 1) data) := by
    rw [List.perm_iff_count]
    intro x
    rw [lanes_calls_count hw, List.count_append]
  have hpad : ∃ m, padding w (Packed.splat 1) data = List.replicate m (1 : BitVec n) := by
    unfold padding
    split
    · exact ⟨0, rfl⟩
    · exact ⟨_, by rw [Packed.splat, Vector.toList_replicate, List.take_replicate]⟩
  obtain ⟨m, hm⟩ := hpad
  have e1 : ((lanes (calls w (Packed.splat 1) data)).map (factor k)).prod = (data.map (factor k)).prod := by
    rw [(hp.map _).prod_eq, List.map_append, List.prod_append, hm, (hr m).1, Nat.mul_one]
  have e2 : ((lanes (calls w (Packed.splat 1) data)).map k.value).prod = (data.map k.value).prod := by
    rw [(hp.map _).prod_eq, List.map_append, List.prod_append, hm, (hr m).2, Int.mul_one]
  have hs : (Packed.splat 1 : Vector (BitVec n) w).toList = List.replicate w 1 := by
    rw [Packed.splat, Vector.toList_replicate]
  obtain ⟨l1, l2⟩ := product_lanes hk (by omega) (calls w (Packed.splat 1) data) (Packed.splat 1)
    (by rw [hs, (hr w).1, e1, Nat.one_mul]; exact hB)
  rw [hs, (hr w).1, e1, Nat.one_mul] at l2
  rw [hs, (hr w).2, e2, Int.one_mul] at l1
  obtain ⟨r, h3, h4⟩ := product_scalar (c := c) hk (by omega) ((calls w (Packed.splat 1) data).foldl
    (fun (acc : Vector (BitVec n) w) v => acc.zipWith (· * ·) v) (Packed.splat 1)).toList (1 : BitVec n)
    (by rw [hf1, Nat.one_mul]; omega)
  refine ⟨r, ?_, by rw [h4, l1, h1, Int.one_mul]⟩
  rw [(product_acc hw fuel data hlen hfuel).1, h3]

/-- A slice within the bounds: five factors, one of them zero, one of them negative. -/
example : ((([3#8, 0#8, 5#8, 253#8, 2#8].map (factor .i)).prod : Nat) : Int) ≤ Kind.hi 8 .i := by decide +kernel

example : sliceProduct (n := 8) debug64 9 .i 2 [3#8, 5#8, 253#8, 2#8] = ok 166#8 := by decide +kernel

/-- **C160** is false in debug builds: where a loop panics, the product of a lane wraps silently; and where a
loop meets the zero before its products grow too large, `product` meets it afterwards and panics. -/
theorem C160_false :
    (sliceProduct (n := 8) debug64 9 .u 2 [16#8, 1#8, 17#8, 1#8] = ok 16#8 ∧
      [16#8, 1#8, 17#8, 1#8].foldlM (mulInt debug64 .u) 1 = Res.panic) ∧
    (sliceProduct (n := 8) debug64 9 .u 4 [16#8, 1#8, 1#8, 0#8, 1#8, 17#8, 1#8, 1#8] = Res.panic ∧
      [16#8, 1#8, 1#8, 0#8, 1#8, 17#8, 1#8, 1#8].foldlM (mulInt debug64 .u) 1 = ok 0#8) := by
  refine ⟨⟨?_, ?_⟩, ?_, ?_⟩ <;> decide +kernel

end Faster
