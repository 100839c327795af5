import Verif.Intrin.Arith
import Verif.Lemmas.Shuffle
/-
Lemmas about lane arithmetic and lane-wise or horizontal operations.
-/
namespace Faster
open Res

variable {α : Type} {n w : Nat}

/-! ### Lanes -/

theorem binaryInstr_eq {i : Instr} {l : LaneInstr} (hl : i.lanes = some l) (hn : l.lane = n)
    (ht : l.total = n * w) (h0 : 0 < n) (a b : Vector (BitVec n) w) :
    binaryInstr i a b = ok (X86.lanewise l.op.eval a b) := by
  obtain ⟨t, m, op⟩ := l
  simp only at hn ht
  subst hn ht
  simp only [binaryInstr, hl, if_true]
  have hd : m * w / m = w := Nat.mul_div_cancel_left w h0
  have key : ∀ w', w' = w → (reinterpret (X86.lanewise (w := w') (op.eval (n := m)) (reinterpret a)
      (reinterpret b)) : Vector (BitVec m) w) = X86.lanewise op.eval a b := by
    intro w' h
    subst h
    rw [reinterpret_self, reinterpret_self, reinterpret_self]
  rw [key _ hd]

theorem binaryFallback_ok {op : α → α → Res α} {idx : List Nat} (hidx : idx = List.range w)
    (a b v : Vector α w) (h : ∀ i (hi : i < w), op a[i] b[i] = ok v[i]) :
    binaryFallback op idx a b = ok v := by
  subst hidx
  unfold binaryFallback
  refine newLanes_getElem _ (by simp) ?_
  intro i hi
  simp [extract_ok (v := a) hi, extract_ok (v := b) hi, h i hi]

/-! ### Scalars -/

/-- `x` clamped to the range of the lane type. -/
def Kind.clamp (n : Nat) (k : Kind) (x : Int) : Int := max (k.lo n) (min (k.hi n) x)

theorem two_pow_pred (h0 : 0 < n) : (2 : Int) ^ n = 2 * 2 ^ (n - 1) := by
  obtain ⟨m, rfl⟩ : ∃ m, n = m + 1 := ⟨n - 1, by omega⟩
  rw [Int.pow_succ, Nat.add_sub_cancel, Int.mul_comm]

theorem Kind.lo_le_hi (k : Kind) (h0 : 0 < n) : k.lo n ≤ k.hi n := by
  have h1 := two_pow_pred h0
  have h2 : (0 : Int) < 2 ^ (n - 1) := Int.pow_pos (by omega)
  cases k <;> simp only [Kind.lo, Kind.hi] <;> omega

theorem Kind.value_bounds (k : Kind) (h0 : 0 < n) (x : BitVec n) :
    k.lo n ≤ k.value x ∧ k.value x ≤ k.hi n := by
  have h1 := two_pow_pred h0
  have hx := x.isLt
  have hc : ((2 ^ n : Nat) : Int) = 2 ^ n := by norm_cast
  cases k
  · simp only [Kind.lo, Kind.hi, Kind.value]; omega
  · simp only [Kind.lo, Kind.hi, Kind.value]
    have := BitVec.le_toInt x
    have := BitVec.toInt_lt (x := x)
    omega
  · simp only [Kind.lo, Kind.hi, Kind.value]; omega

theorem Kind.ofInt_value (k : Kind) (x : BitVec n) : BitVec.ofInt n (k.value x) = x := by
  cases k <;> simp [Kind.value]

theorem Kind.value_ofInt (k : Kind) (h0 : 0 < n) {x : Int} (h : k.lo n ≤ x ∧ x ≤ k.hi n) :
    k.value (BitVec.ofInt n x) = x := by
  have h1 := two_pow_pred h0
  have hc : ((2 ^ n : Nat) : Int) = 2 ^ n := by norm_cast
  have hu : 0 ≤ x → x ≤ 2 ^ n - 1 → ((BitVec.ofInt n x).toNat : Int) = x := by
    intro h1 h2
    rw [BitVec.toNat_ofInt, hc, Int.toNat_of_nonneg (Int.emod_nonneg _ (by omega))]
    exact Int.emod_eq_of_lt h1 (by omega)
  cases k
  · simp only [Kind.lo, Kind.hi, Kind.value] at h ⊢; exact hu h.1 h.2
  · simp only [Kind.lo, Kind.hi, Kind.value] at h ⊢
    rw [BitVec.toInt_ofInt]
    apply Int.bmod_eq_of_le <;> omega
  · simp only [Kind.lo, Kind.hi, Kind.value] at h ⊢; exact hu h.1 h.2

theorem Kind.add_eq (k : Kind) (a b : BitVec n) : a + b = BitVec.ofInt n (k.value a + k.value b) := by
  rw [BitVec.ofInt_add, k.ofInt_value, k.ofInt_value]

theorem Kind.sub_eq (k : Kind) (a b : BitVec n) : a - b = BitVec.ofInt n (k.value a - k.value b) := by
  rw [Int.sub_eq_add_neg, BitVec.ofInt_add, BitVec.ofInt_neg, k.ofInt_value, k.ofInt_value,
    BitVec.sub_eq_add_neg]

theorem Kind.clamp_bounds (k : Kind) (h0 : 0 < n) (x : Int) :
    k.lo n ≤ k.clamp n x ∧ k.clamp n x ≤ k.hi n := by
  have := k.lo_le_hi h0
  unfold Kind.clamp
  omega

theorem satAddScalar_eq (k : Kind) (h0 : 0 < n) (a b : BitVec n) :
    satAddScalar k a b = BitVec.ofInt n (k.clamp n (k.value a + k.value b)) := by
  have ha := k.value_bounds h0 a
  have hb := k.value_bounds h0 b
  have hl : k.lo n ≤ 0 := by
    have h2 : (0 : Int) < 2 ^ (n - 1) := Int.pow_pos (by omega)
    cases k <;> simp only [Kind.lo] <;> omega
  unfold satAddScalar Kind.clamp
  dsimp only
  split
  · rw [k.add_eq]; congr 1; omega
  · congr 1
    split <;> omega

theorem satSubScalar_eq (k : Kind) (h0 : 0 < n) (a b : BitVec n) :
    satSubScalar k a b = BitVec.ofInt n (k.clamp n (k.value a - k.value b)) := by
  have ha := k.value_bounds h0 a
  have hb := k.value_bounds h0 b
  have hl : k.lo n ≤ 0 ∧ -1 ≤ k.lo n + k.hi n := by
    have h1 := two_pow_pred h0
    have h2 : (0 : Int) < 2 ^ (n - 1) := Int.pow_pos (by omega)
    cases k <;> simp only [Kind.lo, Kind.hi] <;> omega
  unfold satSubScalar Kind.clamp
  dsimp only
  split
  · rw [k.sub_eq]; congr 1; omega
  · congr 1
    split <;> omega

theorem satS_eq (x : Int) : X86.satS n x = BitVec.ofInt n (Kind.i.clamp n x) := by
  have h2 : (0 : Int) < 2 ^ (n - 1) := Int.pow_pos (by omega)
  unfold X86.satS Kind.clamp Kind.lo Kind.hi
  dsimp only
  split
  · congr 1; omega
  split <;> (congr 1; omega)

theorem satU_eq (x : Int) : X86.satU n x = BitVec.ofInt n (Kind.u.clamp n x) := by
  have h2 : (0 : Int) < 2 ^ n := Int.pow_pos (by omega)
  unfold X86.satU Kind.clamp Kind.lo Kind.hi
  dsimp only
  split
  · congr 1; omega
  split
  · rw [show max 0 (min (2 ^ n - 1) x) = 0 by omega]; simp
  · congr 1; omega

/-! ### Horizontal operations -/

/-- Specification of the horizontal operations: the pairs of adjacent lanes of
`a` and `b`, interleaved. -/
def hSpec {β : Type} (f : α → α → β) (a b : Vector α w) (hw : w % 2 = 0) : Vector β w :=
  Vector.ofFn fun i =>
    if h : i.val % 2 = 0 then f a[i.val] (a[i.val + 1]'(by omega)) else f b[i.val - 1] b[i.val]

/-- The lane expressions of `hop!`. -/
theorem hop_lanes (op : α → α → Res α) {idx : List Nat} (hidx : idx = List.range w)
    (a b : Vector α w) (hw : w % 2 = 0) :
    hop op idx a b = newLanes (hSpec op a b hw).toList := by
  subst hidx
  unfold hop
  congr 1
  obtain ⟨k, rfl⟩ : ∃ k, w = 2 * k := ⟨w / 2, by omega⟩
  rw [pairs_range, List.flatMap_map, flatMap_pair]
  apply List.ext_getElem
  · simp
  · intro i h1 h2
    have hi : i < 2 * k := by simpa using h1
    by_cases h : i % 2 = 0
    · have e1 : 2 * (i / 2) = i := by omega
      simp [hSpec, h, e1, extract_ok (v := a) (i := i) (by omega),
        extract_ok (v := a) (i := i + 1) (by omega)]
    · have e1 : 2 * (i / 2) = i - 1 := by omega
      have e2 : i - 1 + 1 = i := by omega
      simp [hSpec, h, e1, e2, extract_ok (v := b) (i := i) (by omega),
        extract_ok (v := b) (i := i - 1) (by omega)]

theorem block_div {k q x : Nat} (hx : x < k) : (q * k + x) / k = q := by
  rw [Nat.mul_comm, Nat.mul_add_div (by omega), Nat.div_eq_of_lt hx, Nat.add_zero]

theorem block_mod {k q x : Nat} (hx : x < k) : (q * k + x) % k = x := by
  rw [Nat.mul_comm, Nat.mul_add_mod, Nat.mod_eq_of_lt hx]

/-- Narrow lanes of an unpack of lane pairs; `o` is 0 for the low and `k` for the
high halves of the blocks. -/
theorem unpack_getElem {k : Nat} (a b : Vector (BitVec n) w) (u : Vector (BitVec (2 * n)) (w / 2))
    (o : Nat) (ho : o ≤ k)
    (hu : ∀ j (hj : j < w / 2), u[j] =
      if j % (2 * k) % 2 = 0 then X86.lane (reinterpret a : Vector (BitVec (2 * n)) (w / 2)) (j / (2 * k) * (2 * k) + o + j % (2 * k) / 2)
      else X86.lane (reinterpret b : Vector (BitVec (2 * n)) (w / 2)) (j / (2 * k) * (2 * k) + o + j % (2 * k) / 2))
    (hw : w % 2 = 0) (q s : Nat) (hs : s < 4 * k) (hq : 4 * (q * k) + 4 * k ≤ w) :
    (reinterpret u : Vector (BitVec n) w)[4 * (q * k) + s] =
      if s / 2 % 2 = 0 then a[4 * (q * k) + 2 * o + s / 4 * 2 + s % 2]
      else b[4 * (q * k) + 2 * o + s / 4 * 2 + s % 2] := by
  have hj : (4 * (q * k) + s) / 2 = q * (2 * k) + s / 2 := by
    have : q * (2 * k) = 2 * (q * k) := by ac_rfl
    omega
  have hdiv : (4 * (q * k) + s) / 2 / (2 * k) = q := by rw [hj]; exact block_div (by omega)
  have hmod : (4 * (q * k) + s) / 2 % (2 * k) = s / 2 := by rw [hj]; exact block_mod (by omega)
  have hqq : q * (2 * k) = 2 * (q * k) := by ac_rfl
  have hlt : (4 * (q * k) + s) / 2 < w / 2 := by omega
  have hsrc : q * (2 * k) + o + s / 2 / 2 < w / 2 := by omega
  have hm2 : (4 * (q * k) + s) % 2 = s % 2 := by omega
  have e1 : (q * (2 * k) + o + s / 2 / 2) * 2 + (4 * (q * k) + s) % 2 =
      4 * (q * k) + 2 * o + s / 4 * 2 + s % 2 := by omega
  have hcopy := hu _ hlt
  rw [hdiv, hmod] at hcopy
  have ha : ∀ v : Vector (BitVec n) w, u[(4 * (q * k) + s) / 2] =
      X86.lane (reinterpret v : Vector (BitVec (2 * n)) (w / 2)) (q * (2 * k) + o + s / 2 / 2) →
      (reinterpret u : Vector (BitVec n) w)[4 * (q * k) + s] =
        v[4 * (q * k) + 2 * o + s / 4 * 2 + s % 2] := by
    intro v hv
    rw [lane_eq _ hsrc] at hv
    rw [reinterpret_copy (r := 2) u v rfl (by omega) (by omega) hlt hsrc (by omega) hv]
    simp only [e1]
  split
  · rename_i h
    rw [if_pos h] at hcopy
    exact ha a hcopy
  · rename_i h
    rw [if_neg h] at hcopy
    exact ha b hcopy

theorem getElem_idx (v : Vector α w) {i j : Nat} (hi : i < w) (h : i = j) :
    v[i] = v[j]'(by omega) := by
  subst h; rfl

theorem hopUnpack_eq {k : Nat} (f : BitVec n → BitVec n → BitVec n) (a b : Vector (BitVec n) w)
    (hk : 0 < k) (hwk : w % (4 * k) = 0) (hw : w % 2 = 0) :
    hopUnpack (4 * k) f a b = hSpec f a b hw := by
  apply Vector.ext
  intro i hi
  have hm : i % (4 * k) < 4 * k := Nat.mod_lt _ (by omega)
  have hQ : i / (4 * k) * (4 * k) = 4 * (i / (4 * k) * k) := by ac_rfl
  have hi' : i = 4 * (i / (4 * k) * k) + i % (4 * k) := by
    have := Nat.div_add_mod' i (4 * k); omega
  have hfull : 4 * (i / (4 * k) * k) + 4 * k ≤ w := by
    have h1 : i / (4 * k) < w / (4 * k) := by
      apply Nat.div_lt_div_of_lt_of_dvd (Nat.dvd_of_mod_eq_zero hwk) hi
    have h2 := Nat.mul_le_mul_right (4 * k) (Nat.succ_le_of_lt h1)
    have h3 := Nat.div_add_mod' w (4 * k)
    rw [Nat.succ_mul] at h2
    omega
  have e2 : 4 * k / 2 = 2 * k := by omega
  have e3 : 2 * k / 2 = k := by omega
  simp only [hopUnpack, X86.horizontal, Vector.getElem_ofFn, e2]
  generalize i / (4 * k) = q at *
  generalize i % (4 * k) = t at *
  have hlo := unpack_getElem (k := k) a b (X86.unpacklo (2 * k) (reinterpret a) (reinterpret b)) 0 (by omega)
    (by intro j hj; simp [X86.unpacklo]) hw q
  have hhi := unpack_getElem (k := k) a b (X86.unpackhi (2 * k) (reinterpret a) (reinterpret b)) k (by omega)
    (by intro j hj; simp [X86.unpackhi, e3]) hw q
  simp only [hSpec, Vector.getElem_ofFn]
  rw [hQ]
  by_cases ht : t < 2 * k
  · rw [if_pos ht, lane_eq _ (by omega), lane_eq _ (by omega), hlo _ (by omega) hfull]
    simp only [Nat.add_assoc]
    rw [hlo _ (by omega) hfull]
    have m1 : 2 * t / 2 % 2 = t % 2 := by omega
    have m2 : (2 * t + 1) / 2 % 2 = t % 2 := by omega
    have m3 : i % 2 = t % 2 := by omega
    simp only [m1, m2, m3, Nat.add_assoc]
    by_cases hp : t % 2 = 0
    · simp only [hp, reduceIte, reduceDIte]
      congr 1 <;> exact getElem_idx _ _ (by omega)
    · simp only [hp, reduceIte, reduceDIte]
      congr 1 <;> exact getElem_idx _ _ (by omega)
  · rw [if_neg ht, lane_eq _ (by omega), lane_eq _ (by omega), hhi _ (by omega) hfull]
    simp only [Nat.add_assoc]
    rw [hhi _ (by omega) hfull]
    have m1 : 2 * (t - 2 * k) / 2 % 2 = t % 2 := by omega
    have m2 : (2 * (t - 2 * k) + 1) / 2 % 2 = t % 2 := by omega
    have m3 : i % 2 = t % 2 := by omega
    simp only [m1, m2, m3, Nat.add_assoc]
    by_cases hp : t % 2 = 0
    · simp only [hp, reduceIte, reduceDIte]
      congr 1 <;> exact getElem_idx _ _ (by omega)
    · simp only [hp, reduceIte, reduceDIte]
      congr 1 <;> exact getElem_idx _ _ (by omega)

end Faster
