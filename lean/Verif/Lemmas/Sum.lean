import Verif.Intrin.Sum
import Verif.Lemmas.Cast
import Verif.Lemmas.Count
import Verif.Props.Vec
/-
Lemmas about sums of lanes.
-/
namespace Faster
open Res

variable {α : Type} {n w : Nat}

/-! ### Sums of integers -/

theorem sum_ofInt (l : List (BitVec n)) (f : BitVec n → Int) (hf : ∀ x, BitVec.ofInt n (f x) = x) :
    BitVec.ofInt n (l.map f).sum = l.sum := by
  induction l with
  | nil => simp
  | cons x l ih => rw [List.map_cons, List.sum_cons, List.sum_cons, BitVec.ofInt_add, ih, hf]

theorem sum_bounds (l : List α) (f : α → Int) (lo hi : Int) (h : ∀ x ∈ l, lo ≤ f x ∧ f x ≤ hi) :
    lo * l.length ≤ (l.map f).sum ∧ (l.map f).sum ≤ hi * l.length := by
  induction l with
  | nil => simp
  | cons x l ih =>
    have h1 := h x (by simp)
    have h2 := ih fun y hy => h y (List.mem_cons_of_mem _ hy)
    simp only [List.map_cons, List.sum_cons, List.length_cons, Int.natCast_add, Int.mul_add,
      Int.natCast_one, Int.mul_one]
    omega

theorem sum_groups (f : Nat → Int) (G : Nat) :
    ((List.range (G * 8)).map f).sum =
      ((List.range G).map fun g => ((List.range 8).map fun t => f (g * 8 + t)).sum).sum := by
  induction G with
  | zero => simp
  | succ G ih =>
    rw [Nat.succ_mul, List.range_add, List.map_append, List.sum_append, ih,
      List.range_succ (n := G), List.map_append, List.sum_append, List.map_map]
    simp [Function.comp_def]

theorem toList_eq_lanes (v : Vector (BitVec n) w) : v.toList = (List.range w).map (X86.lane v) := by
  apply List.ext_getElem
  · simp
  · intro i h1 h2
    have hi : i < w := by simpa using h1
    simp [X86.lane, hi]

/-- Sum of `f` over the eight lanes of group `g`. -/
def groupSum (f : BitVec 8 → Int) (v : Vector (BitVec 8) w) (g : Nat) : Int :=
  ((List.range 8).map fun t => f (X86.lane v (g * 8 + t))).sum

theorem sum_eq_groups (f : BitVec 8 → Int) (v : Vector (BitVec 8) w) (G : Nat) (hw : w = G * 8) :
    (v.toList.map f).sum = ((List.range G).map (groupSum f v)).sum := by
  rw [toList_eq_lanes, List.map_map]
  subst hw
  rw [sum_groups]
  rfl

theorem sum_sub (l : List α) (f g : α → Int) :
    (l.map f).sum - (l.map g).sum = (l.map fun x => f x - g x).sum := by
  induction l with
  | nil => simp
  | cons x l ih => simp only [List.map_cons, List.sum_cons]; omega

theorem natSum_cast (l : List α) (f : α → Nat) :
    (((l.map f).sum : Nat) : Int) = (l.map fun x => (f x : Int)).sum := by
  induction l with
  | nil => simp
  | cons x l ih => simp only [List.map_cons, List.sum_cons, ← ih]; omega

/-! ### SAD -/

theorem groupSum_bounds (v : Vector (BitVec 8) w) (g : Nat) :
    0 ≤ groupSum (fun x => (x.toNat : Int)) v g ∧ groupSum (fun x => (x.toNat : Int)) v g ≤ 2040 := by
  have := sum_bounds (List.range 8) (fun t => ((X86.lane v (g * 8 + t)).toNat : Int)) 0 255
    (fun t _ => by have := (X86.lane v (g * 8 + t)).isLt; omega)
  simpa [groupSum] using this

/-- Word `4 * g` of the SAD result is the sum of group `g`. -/
theorem sadWords_getElem (v : Vector (BitVec 8) w) {g i : Nat} (hw : w % 8 = 0) (hi : i < w / 2)
    (h : i = 4 * g) :
    ((sadWords v)[i].toNat : Int) = groupSum (fun x => (x.toNat : Int)) v g := by
  have hg : i / 4 < w / 8 := by omega
  have hb := groupSum_bounds v g
  have hz : ∀ j, X86.lane (Packed.splat 0#8 : Vector (BitVec 8) w) j = 0#8 := by
    intro j
    by_cases hj : j < w
    · simp [X86.lane, Packed.splat, hj]
    · simp [X86.lane, Packed.splat, hj]
  have hs : (((List.range 8).map fun t => (X86.lane v (g * 8 + t)).toNat).sum : Nat) =
      groupSum (fun x => (x.toNat : Int)) v g := by
    rw [natSum_cast]; rfl
  have hi4 : i / 4 = g := by omega
  unfold sadWords
  rw [reinterpret_narrow (r := 4) _ rfl (by omega) hi hg]
  simp only [X86.sadEpu8, Vector.getElem_ofFn, hz, BitVec.toNat_ofNat, Nat.zero_mod,
    Nat.not_lt_zero, if_false, Nat.sub_zero, BitVec.extractLsb'_toNat, hi4,
    show i % 4 = 0 by omega, Nat.zero_mul, Nat.shiftRight_zero]
  omega

/-! ### Horizontal additions -/

theorem vec8 (v : Vector α 8) : ∃ a b c d e f g h, v = #v[a, b, c, d, e, f, g, h] :=
  ⟨v[0], v[1], v[2], v[3], v[4], v[5], v[6], v[7], by
    apply Vector.ext
    intro i hi
    match i, hi with
    | 0, _ | 1, _ | 2, _ | 3, _ | 4, _ | 5, _ | 6, _ | 7, _ => rfl⟩

theorem hadd0_lane (e : Nat) (x : Vector (BitVec n) w) {i : Nat} (hi : i < w) (ht : i % e < e / 2) :
    X86.lane (hadd0 e x) i =
      X86.lane x (i / e * e + 2 * (i % e)) + X86.lane x (i / e * e + 2 * (i % e) + 1) := by
  simp [X86.lane, hadd0, X86.horizontal, hi, ht]

theorem extract_lane (x : Vector (BitVec n) w) {i : Nat} (hi : i < w) :
    Packed.extract x i = ok (X86.lane x i) := by
  rw [extract_ok hi]; simp [X86.lane, hi]

/-! ### Checked additions -/

theorem Kind.value_add (k : Kind) (h0 : 0 < n) (a b : BitVec n)
    (h : k.lo n ≤ k.value a + k.value b ∧ k.value a + k.value b ≤ k.hi n) :
    k.value (a + b) = k.value a + k.value b := by
  rw [k.add_eq, k.value_ofInt h0 h]

theorem overflowCheck_fits {c : Cfg} {k : Kind} {x : Int} {r : BitVec n}
    (h : k.lo n ≤ x ∧ x ≤ k.hi n) : overflowCheck c k x r = ok r := by
  simp [overflowCheck, h]

theorem overflowCheck_release {c : Cfg} (hc : c.debug = false) {k : Kind} {x : Int} {r : BitVec n} :
    overflowCheck c k x r = ok r := by
  simp [overflowCheck, hc]

theorem overflowCheck_panic {c : Cfg} (hc : c.debug = true) {k : Kind} {x : Int} {r : BitVec n}
    (h : ¬ (k.lo n ≤ x ∧ x ≤ k.hi n)) : overflowCheck c k x r = panic := by
  simp [overflowCheck, hc, h]

/-- Repeated checked addition when no prefix overflows. -/
theorem foldlM_check_fits (c : Cfg) (k : Kind) (h0 : 0 < n) (g : α → BitVec n) (l : List α) :
    ∀ acc, (∀ j, 0 < j → j ≤ l.length →
      k.lo n ≤ k.value acc + ((l.take j).map fun x => k.value (g x)).sum ∧
      k.value acc + ((l.take j).map fun x => k.value (g x)).sum ≤ k.hi n) →
    l.foldlM (fun acc s => overflowCheck c k (k.value acc + k.value (g s)) (acc + g s)) acc =
      ok (acc + (l.map g).sum) := by
  induction l with
  | nil => intro acc _; simp
  | cons x l ih =>
    intro acc h
    have h1 := h 1 (by omega) (by simp)
    simp only [List.take_succ_cons, List.take_zero, List.map_cons, List.map_nil, List.sum_cons,
      List.sum_nil, Int.add_zero] at h1
    rw [List.foldlM_cons, overflowCheck_fits h1]
    simp only [Res.ok_bind]
    rw [ih]
    · rw [List.map_cons, List.sum_cons, BitVec.add_assoc]
    · intro j hj hjl
      have h2 := h (j + 1) (by omega) (by simp; omega)
      simp only [List.take_succ_cons, List.map_cons, List.sum_cons] at h2
      rw [k.value_add h0 _ _ h1]
      omega

/-- Repeated checked addition in a release build. -/
theorem foldlM_check_release (c : Cfg) (hc : c.debug = false) (k : Kind) (g : α → BitVec n)
    (l : List α) : ∀ acc,
    l.foldlM (fun acc s => overflowCheck c k (k.value acc + k.value (g s)) (acc + g s)) acc =
      ok (acc + (l.map g).sum) := by
  induction l with
  | nil => intro acc; simp
  | cons x l ih =>
    intro acc
    rw [List.foldlM_cons, overflowCheck_release hc]
    simp only [Res.ok_bind]
    rw [ih, List.map_cons, List.sum_cons, BitVec.add_assoc]

/-- Repeated checked addition in a debug build when some prefix overflows. -/
theorem foldlM_check_panic (c : Cfg) (hc : c.debug = true) (k : Kind) (h0 : 0 < n) (g : α → BitVec n)
    (l : List α) : ∀ acc j, 0 < j → j ≤ l.length →
      ¬ (k.lo n ≤ k.value acc + ((l.take j).map fun x => k.value (g x)).sum ∧
        k.value acc + ((l.take j).map fun x => k.value (g x)).sum ≤ k.hi n) →
    l.foldlM (fun acc s => overflowCheck c k (k.value acc + k.value (g s)) (acc + g s)) acc =
      panic := by
  induction l with
  | nil => intro acc j h1 h2; simp at h2; omega
  | cons x l ih =>
    intro acc j hj hjl h
    rw [List.foldlM_cons]
    by_cases h1 : k.lo n ≤ k.value acc + k.value (g x) ∧ k.value acc + k.value (g x) ≤ k.hi n
    · rw [overflowCheck_fits h1]
      simp only [Res.ok_bind]
      obtain ⟨j, rfl⟩ : ∃ i, j = i + 1 := ⟨j - 1, by omega⟩
      simp only [List.take_succ_cons, List.map_cons, List.sum_cons] at h
      have hj0 : j ≠ 0 := by rintro rfl; simp at h; omega
      refine ih _ j (by omega) (by simpa using hjl) ?_
      rw [k.value_add h0 _ _ h1]
      omega
    · rw [overflowCheck_panic hc h1]
      rfl

theorem asI64_toInt (k : Kind) (hn : n < 64) (x : BitVec n) : (asI64 k x).toInt = k.value x := by
  unfold asI64
  cases k
  · rw [if_neg (by simp)]
    simp only [Kind.value]
    rw [BitVec.toInt_eq_toNat_of_lt]
    · rw [BitVec.toNat_setWidth_of_le (by omega)]
    · rw [BitVec.toNat_setWidth_of_le (by omega)]
      have := x.isLt
      have : 2 ^ n ≤ 2 ^ 63 := Nat.pow_le_pow_right (by omega) (by omega)
      omega
  · rw [if_pos rfl]
    exact BitVec.toInt_signExtend_of_le (by omega)
  · rw [if_neg (by simp)]
    simp only [Kind.value]
    rw [BitVec.toInt_eq_toNat_of_lt]
    · rw [BitVec.toNat_setWidth_of_le (by omega)]
    · rw [BitVec.toNat_setWidth_of_le (by omega)]
      have := x.isLt
      have : 2 ^ n ≤ 2 ^ 63 := Nat.pow_le_pow_right (by omega) (by omega)
      omega

theorem setWidth_ofInt {m : Nat} (h : n ≤ m) (x : Int) :
    (BitVec.ofInt m x).setWidth n = BitVec.ofInt n x := by
  have hd : (2 : Int) ^ n ∣ 2 ^ m := ⟨2 ^ (m - n), by rw [← Int.pow_add]; congr 1; omega⟩
  have hp : (0 : Int) < 2 ^ m := Int.pow_pos (by omega)
  have hp' : (0 : Int) < 2 ^ n := Int.pow_pos (by omega)
  apply BitVec.eq_of_toNat_eq
  rw [BitVec.toNat_setWidth, BitVec.toNat_ofInt, BitVec.toNat_ofInt]
  apply Int.ofNat_inj.mp
  push_cast
  rw [Int.toNat_of_nonneg (Int.emod_nonneg _ (by omega)), Int.toNat_of_nonneg (Int.emod_nonneg _ (by omega))]
  exact Int.emod_emod_of_dvd _ hd

end Faster
