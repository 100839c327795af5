import Verif.Lemmas.Round
import Verif.Props.Arith
import Mathlib.Data.Rat.Floor
import Mathlib.Tactic.FieldSimp
/-
Float comparisons (C65, C66), rounding (C67, C68), roots and reciprocals (C69).
-/
namespace Faster
open Res

variable {α : Type} {n w : Nat}

/-! ### Specification: IEEE 754 values -/

/-- What a bit pattern stands for; the two infinities carry their sign. -/
inductive FVal
  | nan
  | inf (neg : Bool)
  | fin (v : ℚ)

/-- Value of a bit pattern in the binary32 (`n = 32`) and binary64 formats. -/
def ieee (x : BitVec n) : FVal :=
  let m : Nat := if n = 32 then 23 else 52
  let bias : Nat := if n = 32 then 127 else 1023
  let E : Nat := x.toNat / 2 ^ m % (2 * bias + 2)
  let F : Nat := x.toNat % 2 ^ m
  let sign : ℚ := if x.msb then -1 else 1
  if E = 2 * bias + 1 then (if F = 0 then .inf x.msb else .nan)
  else if E = 0 then .fin (sign * ((F : ℚ) / 2 ^ m) * (2 : ℚ) ^ (1 - bias : ℤ))
  else .fin (sign * (1 + (F : ℚ) / 2 ^ m) * (2 : ℚ) ^ ((E : ℤ) - bias))

/-- Order of the values; NaN is not comparable. -/
def FVal.le : FVal → FVal → Prop
  | .nan, _ => False
  | _, .nan => False
  | .inf true, _ => True
  | _, .inf false => True
  | .fin v, .fin w => v ≤ w
  | _, _ => False

/-! ### Bridge -/

/-- Facts about a format: `m` fraction bits, bias `b`. -/
structure IsFormat (n m b : Nat) : Prop where
  m_eq : (if n = 32 then 23 else 52) = m
  b_eq : (if n = 32 then 127 else 1023) = b
  half : 2 ^ (n - 1) = 2 ^ m * (2 * b + 2)
  inf : infBits n = (2 * b + 1) * 2 ^ m
  pos : 0 < n
  m_le : m ≤ b
  b_gt : 1 < b

theorem format32 : IsFormat 32 23 127 := by constructor <;> decide
theorem format64 : IsFormat 64 52 1023 := by constructor <;> decide

theorem IsFormat.of {n : Nat} (h : n = 32 ∨ n = 64) : IsFormat n (mantBits n) (expBias n) := by
  rcases h with rfl | rfl
  · exact format32
  · exact format64

/-- The sign as a number. -/
def fsign (x : BitVec n) : ℚ := if x.msb then -1 else 1

/-- `ieee` in terms of the magnitude bits. -/
theorem ieee_eq {m b : Nat} (h : IsFormat n m b) (x : BitVec n) :
    ieee x = if fnan x then .nan else if fmag x = infBits n then .inf x.msb
      else .fin (fsign x * ((funits m (fmag x) : ℚ) / 2 ^ (m + (b - 1)))) := by
  have h0 : 0 < 2 ^ m := Nat.pow_pos (by omega)
  have hE : x.toNat / 2 ^ m % (2 * b + 2) = fmag x / 2 ^ m := by
    unfold fmag
    rw [h.half, Nat.mod_mul_right_div_self]
  have hF : x.toNat % 2 ^ m = fmag x % 2 ^ m := by
    unfold fmag
    rw [h.half, Nat.mod_mul_right_mod]
  have hlt : fmag x / 2 ^ m < 2 * b + 2 := by
    rw [← hE]; exact Nat.mod_lt _ (by omega)
  unfold ieee
  simp only [h.m_eq, h.b_eq]
  rw [hE, hF]
  have hs := mag_split m (fmag x)
  have hf : fmag x % 2 ^ m < 2 ^ m := Nat.mod_lt _ h0
  have hval := funits_mk (e := fmag x / 2 ^ m) hf
  rw [← hs] at hval
  unfold fnan
  rw [h.inf]
  generalize fmag x / 2 ^ m = e at *
  generalize fmag x % 2 ^ m = f at *
  by_cases he : e = 2 * b + 1
  · rw [if_pos he]
    subst he
    by_cases hf0 : f = 0
    · subst hf0
      simp [hs]
    · rw [if_neg hf0, if_pos (by simp; omega)]
  · rw [if_neg he]
    have hle : e * 2 ^ m + 2 ^ m ≤ (2 * b + 1) * 2 ^ m := by
      rw [← Nat.succ_mul]; exact Nat.mul_le_mul_right _ (by omega)
    rw [if_neg (c := (decide _ = true)) (by simp; omega), if_neg (c := fmag x = _) (by omega)]
    have hb := h.b_gt
    rw [hval]
    by_cases he0 : e = 0
    · rw [if_pos he0, if_pos he0]
      congr 1
      rw [show (1 - (b : ℤ)) = -((b - 1 : ℕ) : ℤ) by omega, zpow_neg, zpow_natCast, pow_add]
      unfold fsign
      field_simp
    · rw [if_neg he0, if_neg he0]
      congr 1
      obtain ⟨e, rfl⟩ : ∃ e', e = e' + 1 := ⟨e - 1, by omega⟩
      rw [show (((e + 1 : ℕ) : ℤ) - (b : ℤ)) = (e : ℤ) - ((b - 1 : ℕ) : ℤ) by omega, zpow_sub₀ (by norm_num),
        zpow_natCast, zpow_natCast, pow_add]
      unfold fsign
      push_cast
      field_simp


theorem fmag_lt (_h0 : 0 < n) (x : BitVec n) : fmag x < 2 ^ (n - 1) :=
  Nat.mod_lt _ (Nat.pow_pos (by omega))

theorem toNat_sign_mag (h0 : 0 < n) (x : BitVec n) :
    x.toNat = (if x.msb then 2 ^ (n - 1) else 0) + fmag x := by
  have hx := x.isLt
  have h2 : 2 ^ n = 2 ^ (n - 1) * 2 := by rw [← Nat.pow_succ]; congr 1; omega
  rw [BitVec.msb_eq_decide]
  unfold fmag
  by_cases h : 2 ^ (n - 1) ≤ x.toNat
  · rw [if_pos (by simpa using h), Nat.mod_eq_sub_mod h, Nat.mod_eq_of_lt (by omega)]
    omega
  · rw [if_neg (by simpa using h), Nat.mod_eq_of_lt (by omega)]
    omega

theorem ofNat_sign_mag (h0 : 0 < n) (s : Bool) {mag : Nat} (hm : mag < 2 ^ (n - 1)) :
    (BitVec.ofNat n ((if s then 2 ^ (n - 1) else 0) + mag)).msb = s ∧
    fmag (BitVec.ofNat n ((if s then 2 ^ (n - 1) else 0) + mag)) = mag := by
  have h2 : 2 ^ n = 2 ^ (n - 1) * 2 := by rw [← Nat.pow_succ]; congr 1; omega
  have hlt : (if s then 2 ^ (n - 1) else 0) + mag < 2 ^ n := by split <;> omega
  constructor
  · rw [BitVec.msb_eq_decide, BitVec.toNat_ofNat, Nat.mod_eq_of_lt hlt]
    cases s
    · simp; omega
    · simp
  · unfold fmag
    rw [BitVec.toNat_ofNat, Nat.mod_eq_of_lt hlt]
    cases s
    · simp [Nat.mod_eq_of_lt hm]
    · simp [Nat.mod_eq_of_lt hm]

/-- Sign and magnitude determine the bits. -/
theorem eq_of_sign_mag (h0 : 0 < n) {x y : BitVec n} (hs : x.msb = y.msb) (hm : fmag x = fmag y) :
    x = y := by
  apply BitVec.eq_of_toNat_eq
  rw [toNat_sign_mag h0 x, toNat_sign_mag h0 y, hs, hm]

/-- Magnitudes that are not finite stay as they are. -/
theorem roundMag_special {m b : Nat} (hmb : m ≤ b) (d : RoundDir) (neg : Bool) {mag : Nat}
    (h : (2 * b + 1) * 2 ^ m ≤ mag) : roundMag m b d neg mag = mag := by
  have h0 : 0 < 2 ^ m := Nat.pow_pos (by omega)
  have : 2 * b + 1 ≤ mag / 2 ^ m := (Nat.le_div_iff_mul_le h0).2 h
  unfold roundMag
  simp only
  rw [if_pos (by omega)]

/-- Finite magnitudes stay finite. -/
theorem roundMag_finite {m b : Nat} (hmb : m ≤ b) (hb : 1 < b) (d : RoundDir) (neg : Bool)
    {mag : Nat} (h : mag < (2 * b + 1) * 2 ^ m) : roundMag m b d neg mag < (2 * b + 1) * 2 ^ m := by
  have h0 : 0 < 2 ^ m := Nat.pow_pos (by omega)
  have h1 : b * 2 ^ m < (2 * b + 1) * 2 ^ m := Nat.mul_lt_mul_of_pos_right (by omega) h0
  unfold roundMag
  simp only
  split
  · exact h
  · rename_i he
    split
    · split <;> omega
    · rename_i hbe
      have hk : 2 ^ (b + m - mag / 2 ^ m) ≤ 2 ^ m := Nat.pow_le_pow_right (by omega) (by omega)
      have h2 : mag < (mag / 2 ^ m + 1) * 2 ^ m := by
        have := Nat.lt_div_mul_add h0 (a := mag)
        rw [Nat.add_mul]; omega
      have h3 : (mag / 2 ^ m + 1) * 2 ^ m + 2 ^ m ≤ (2 * b + 1) * 2 ^ m := by
        rw [← Nat.succ_mul]; exact Nat.mul_le_mul_right _ (by omega)
      split <;> omega

/-- The pieces of a finite float: sign, integer part and fraction of the magnitude. -/
theorem fround_finite (hn : n = 32 ∨ n = 64) (d : RoundDir) (x : BitVec n) {v : ℚ}
    (hv : ieee x = .fin v) :
    ∃ (q : ℕ) (t : ℚ), 0 ≤ t ∧ t < 1 ∧ v = fsign x * (q + t) ∧
      (fround d x).msb = x.msb ∧
      ieee (fround d x) = .fin (fsign x * (q +
        if d.carries x.msb (q % 2 == 1) (decide (t = 0)) (compare t (1 / 2)) then 1 else 0)) := by
  have h := IsFormat.of hn
  generalize hm : mantBits n = m at h
  generalize hb : expBias n = b at h
  have hb1 := h.b_gt
  have hfin : fmag x < (2 * b + 1) * 2 ^ m := by
    rw [ieee_eq h, h.inf] at hv
    unfold fnan at hv
    rw [h.inf] at hv
    split at hv
    · simp at hv
    · rename_i h1
      split at hv
      · simp at hv
      · simp at h1; omega
  have hfin' := roundMag_finite h.m_le hb1 d x.msb hfin
  have hhalf : (2 * b + 1) * 2 ^ m ≤ 2 ^ (n - 1) := by
    rw [h.half, Nat.mul_comm (2 ^ m)]; exact Nat.mul_le_mul_right _ (by omega)
  obtain ⟨hs, hg⟩ := ofNat_sign_mag h.pos x.msb (lt_of_lt_of_le hfin' hhalf)
  have hr : fround d x = BitVec.ofNat n ((if x.msb then 2 ^ (n - 1) else 0) +
      roundMag m b d x.msb (fmag x)) := by
    unfold fround; rw [hm, hb]
  rw [← hr] at hs hg
  generalize hu : 2 ^ (m + (b - 1)) = u
  have hu0 : 0 < u := by rw [← hu]; exact Nat.pow_pos (by omega)
  have huq : (0 : ℚ) < u := by exact_mod_cast hu0
  have hval := roundMag_funits m b hb1 d x.msb (fmag x) u _ _ hu.symm rfl rfl
  have hdm := Nat.div_add_mod (funits m (fmag x)) u
  have hlt := Nat.mod_lt (funits m (fmag x)) hu0
  have huc : ((2 : ℚ) ^ (m + (b - 1))) = u := by rw [← hu]; push_cast; rfl
  have hfv : ∀ y : BitVec n, fmag y < (2 * b + 1) * 2 ^ m →
      ieee y = .fin (fsign y * ((funits m (fmag y) : ℚ) / u)) := by
    intro y hy
    rw [ieee_eq h, h.inf, if_neg, if_neg, huc]
    · omega
    · unfold fnan; rw [h.inf]; simp; omega
  generalize funits m (fmag x) / u = q at *
  generalize funits m (fmag x) % u = r at *
  refine ⟨q, (r : ℚ) / u, by positivity, ?_, ?_, hs, ?_⟩
  · rw [div_lt_one huq]; exact_mod_cast hlt
  · rw [hfv x hfin] at hv
    injection hv with hv
    rw [← hv, ← hdm]
    congr 1
    push_cast
    field_simp
  · rw [hfv _ (by rw [hg]; exact hfin'), hg, hval]
    have hsg : fsign (fround d x) = fsign x := by unfold fsign; rw [hs]
    rw [hsg]
    have h1 : (r == 0) = decide ((r : ℚ) / u = 0) := by
      rw [Bool.eq_iff_iff, beq_iff_eq, decide_eq_true_eq, div_eq_zero_iff]
      constructor
      · intro h; left; exact_mod_cast h
      · rintro (h | h)
        · exact_mod_cast h
        · exact absurd h huq.ne'
    have h2 : compare (2 * r) u = compare ((r : ℚ) / u) (1 / 2) := by
      rcases Nat.lt_trichotomy (2 * r) u with hc | hc | hc
      · rw [Nat.compare_eq_lt.2 hc, eq_comm, compare_lt_iff_lt, div_lt_div_iff₀ huq (by norm_num)]
        have : ((2 * r : ℕ) : ℚ) < u := by exact_mod_cast hc
        push_cast at this; linarith
      · rw [Nat.compare_eq_eq.2 hc, eq_comm, compare_eq_iff_eq, div_eq_div_iff huq.ne' (by norm_num)]
        have : ((2 * r : ℕ) : ℚ) = u := by exact_mod_cast hc
        push_cast at this; linarith
      · rw [Nat.compare_eq_gt.2 hc, eq_comm, compare_gt_iff_gt,
          div_lt_div_iff₀ (by norm_num) huq]
        have : (u : ℚ) < ((2 * r : ℕ) : ℚ) := by exact_mod_cast hc
        push_cast at this; linarith
    rw [h1, h2]
    congr 2
    push_cast
    field_simp

theorem fround_special (hn : n = 32 ∨ n = 64) (d : RoundDir) (x : BitVec n)
    (hv : ∀ v, ieee x ≠ .fin v) : fround d x = x := by
  have h := IsFormat.of hn
  have hb : infBits n ≤ fmag x := by
    rcases Nat.lt_or_ge (fmag x) (infBits n) with hlt | hge
    · refine absurd ?_ (hv (fsign x * ((funits (mantBits n) (fmag x) : ℚ) /
        2 ^ (mantBits n + (expBias n - 1)))))
      rw [ieee_eq h, if_neg (by unfold fnan; simp; omega), if_neg (by omega)]
    · exact hge
  rw [h.inf] at hb
  unfold fround
  rw [roundMag_special h.m_le d x.msb hb, ← toNat_sign_mag h.pos, BitVec.ofNat_toNat,
    BitVec.setWidth_eq]


/-! ### Order of the values and of the bits -/

theorem fkey_pos {x : BitVec n} (h : x.msb = false) : fkey x = fmag x := by simp [fkey, h]
theorem fkey_neg {x : BitVec n} (h : x.msb = true) : fkey x = -(fmag x : ℤ) := by simp [fkey, h]

theorem fin_le_iff {m u : Nat} (hu : 0 < u) (x y : BitVec n) :
    fsign x * ((funits m (fmag x) : ℚ) / u) ≤ fsign y * ((funits m (fmag y) : ℚ) / u) ↔
      fkey x ≤ fkey y := by
  have huq : (0 : ℚ) < u := by exact_mod_cast hu
  have hmono := funits_strictMono m
  have hle := hmono.le_iff_le (a := fmag x) (b := fmag y)
  have hle' := hmono.le_iff_le (a := fmag y) (b := fmag x)
  have hx0 := hmono.le_iff_le (a := fmag x) (b := 0)
  have hy0 := hmono.le_iff_le (a := fmag y) (b := 0)
  rw [funits_zero] at hx0 hy0
  rw [mul_div_assoc', mul_div_assoc', div_le_div_iff_of_pos_right huq]
  generalize funits m (fmag x) = a at *
  generalize funits m (fmag y) = b at *
  have key : ∀ s t : Bool, x.msb = s → y.msb = t →
      ((if s then -1 else 1 : ℚ) * a ≤ (if t then -1 else 1 : ℚ) * b ↔
        (if s then -(a : ℤ) else a) ≤ (if t then -(b : ℤ) else b)) := by
    intro s t _ _
    have h0 : (0 : ℚ) ≤ a := Nat.cast_nonneg a
    have h1 : (0 : ℚ) ≤ b := Nat.cast_nonneg b
    cases s <;> cases t
    · simp
    · simp only [Bool.false_eq_true, if_true, if_false, one_mul, neg_one_mul]; norm_cast
    · simp; linarith
    · simp
  have := key x.msb y.msb rfl rfl
  unfold fsign
  rw [this]
  unfold fkey
  cases x.msb <;> cases y.msb <;> simp <;> omega

theorem ieee_le_iff (hn : n = 32 ∨ n = 64) {x y : BitVec n} (hx : ieee x ≠ .nan)
    (hy : ieee y ≠ .nan) : (ieee x).le (ieee y) ↔ fkey x ≤ fkey y := by
  have h := IsFormat.of hn
  generalize mantBits n = m at h
  generalize expBias n = b at h
  have huc : ((2 : ℚ) ^ (m + (b - 1))) = ((2 ^ (m + (b - 1)) : ℕ) : ℚ) := by push_cast; rfl
  have hpos : 0 < 2 ^ (m + (b - 1)) := Nat.pow_pos (by omega)
  have hle := fin_le_iff (m := m) hpos x y
  have hnx : fmag x ≤ infBits n := by
    by_contra hc
    exact hx (by rw [ieee_eq h, if_pos (by unfold fnan; simp; omega)])
  have hny : fmag y ≤ infBits n := by
    by_contra hc
    exact hy (by rw [ieee_eq h, if_pos (by unfold fnan; simp; omega)])
  rw [ieee_eq h, ieee_eq h, if_neg (c := fnan x = true) (by unfold fnan; simp; omega),
    if_neg (c := fnan y = true) (by unfold fnan; simp; omega), huc]
  split
  · rename_i hxi
    split
    · rename_i hyi
      unfold fkey
      rw [hxi, hyi]
      have h0 : 0 < infBits n := by rw [h.inf]; positivity
      cases x.msb <;> cases y.msb <;> simp [FVal.le]; omega
    · rename_i hyi
      unfold fkey
      cases x.msb <;> cases y.msb <;> simp [FVal.le] <;> omega
  · rename_i hxi
    split
    · rename_i hyi
      unfold fkey
      cases x.msb <;> cases y.msb <;> simp [FVal.le] <;> omega
    · exact hle

theorem FVal.eq_iff_le {a b : FVal} (ha : a ≠ .nan) (hb : b ≠ .nan) :
    a = b ↔ a.le b ∧ b.le a := by
  cases a <;> cases b
  all_goals first | exact absurd rfl ha | exact absurd rfl hb | skip
  · rename_i s t; cases s <;> cases t <;> simp [FVal.le]
  · rename_i s t; cases s <;> simp [FVal.le]
  · rename_i s t; cases t <;> simp [FVal.le]
  · simp only [FVal.le, FVal.fin.injEq]; exact le_antisymm_iff

theorem ieee_eq_iff (hn : n = 32 ∨ n = 64) {x y : BitVec n} (hx : ieee x ≠ .nan)
    (hy : ieee y ≠ .nan) : ieee x = ieee y ↔ fkey x = fkey y := by
  rw [FVal.eq_iff_le hx hy, ieee_le_iff hn hx hy, ieee_le_iff hn hy hx]
  omega

theorem fnan_iff (hn : n = 32 ∨ n = 64) (x : BitVec n) : fnan x = true ↔ ieee x = .nan := by
  rw [ieee_eq (IsFormat.of hn)]
  split
  · simp [*]
  · split <;> simp [*]

/-- Two non-NaN floats of the same sign and value are the same bits. -/
theorem bits_eq_of_ieee (hn : n = 32 ∨ n = 64) {x y : BitVec n} (hx : ieee x ≠ .nan)
    (hs : x.msb = y.msb) (he : ieee x = ieee y) : x = y := by
  have hk := (ieee_eq_iff hn hx (he ▸ hx)).1 he
  refine eq_of_sign_mag (by omega) hs ?_
  unfold fkey at hk
  rw [hs] at hk
  split at hk <;> omega


/-! ### C65: equality masks of floats -/

theorem feq_iff (hn : n = 32 ∨ n = 64) (a b : BitVec n) :
    feq a b = true ↔ ieee a ≠ .nan ∧ ieee a = ieee b := by
  unfold feq
  simp only [Bool.and_eq_true, Bool.not_eq_true', beq_iff_eq]
  rw [← Bool.not_eq_true, ← Bool.not_eq_true, fnan_iff hn, fnan_iff hn]
  constructor
  · rintro ⟨⟨ha, hb⟩, hk⟩
    exact ⟨ha, (ieee_eq_iff hn ha hb).2 hk⟩
  · rintro ⟨ha, he⟩
    exact ⟨⟨ha, he ▸ ha⟩, (ieee_eq_iff hn ha (he ▸ ha)).1 he⟩

/-- Specification of `eq_mask` for float lanes: all ones where the two lanes have
the same value (both zeros are the same value; NaN equals nothing), zero elsewhere. -/
def IsFloatEqMask (a b v : Vector (BitVec n) w) : Prop :=
  ∀ i (hi : i < w),
    ((ieee a[i] ≠ .nan ∧ ieee a[i] = ieee b[i]) → ∀ k, k < n → v[i].getLsbD k = true) ∧
    (¬ (ieee a[i] ≠ .nan ∧ ieee a[i] = ieee b[i]) → ∀ k, k < n → v[i].getLsbD k = false)

theorem eqRows_float : ∀ r ∈ eqRows, r.kind = .f → r.idx = List.range r.width ∧
    (8 * r.size = 32 ∨ 8 * r.size = 64) ∧ r.fn = .eq ∧
    r.mm.lanes = some ⟨8 * r.size * r.width, 8 * r.size, .cmpeqF⟩ := by
  decide +kernel

theorem eqRowsUnknown_float : ∀ r ∈ eqRowsUnknown, r.kind = .f → r.idx = List.range r.width ∧
    (8 * r.size = 32 ∨ 8 * r.size = 64) ∧ r.fn = .eq := by
  decide +kernel

example : (eqRows.filter fun r => r.kind = .f).length = 4 := by decide
example : (eqRowsUnknown.filter fun r => r.kind = .f).length = 2 := by decide

/-- C65: the compare instructions set exactly the lanes with equal values. -/
theorem C65_optimized (r : BinRow) (hr : r ∈ eqRows) (hk : r.kind = .f)
    (a b : Vector (BitVec (8 * r.size)) r.width) :
    ∃ v, binaryInstr r.mm a b = ok v ∧ IsFloatEqMask a b v := by
  obtain ⟨-, h0, -, hl⟩ := eqRows_float r hr hk
  refine ⟨_, binaryInstr_eq hl rfl rfl (show 0 < 8 * r.size by omega) a b, fun i hi => ?_⟩
  rw [← feq_iff h0]
  simp only [X86.lanewise, Vector.getElem_ofFn, LaneOp.eval, X86.cmpeqF, Fin.getElem_fin]
  constructor
  · intro h k hk'
    rw [if_pos h]; simp [hk']
  · intro h k hk'
    rw [if_neg h]; simp

/-- C65: so do the fallbacks (Rust's `==`), in every build and on every target. -/
theorem C65_fallback (c : Cfg) (r : BinRow) (hr : r ∈ eqRows ∨ r ∈ eqRowsUnknown)
    (hk : r.kind = .f) (a b : Vector (BitVec (8 * r.size)) r.width) :
    ∃ v, binaryFallback (r.fn.eval c r.kind) r.idx a b = ok v ∧ IsFloatEqMask a b v := by
  obtain ⟨hidx, h0, hfn⟩ : r.idx = List.range r.width ∧ (8 * r.size = 32 ∨ 8 * r.size = 64) ∧
      r.fn = .eq := by
    rcases hr with hr | hr
    · obtain ⟨h1, h2, h3, -⟩ := eqRows_float r hr hk
      exact ⟨h1, h2, h3⟩
    · exact eqRowsUnknown_float r hr hk
  refine ⟨Vector.ofFn fun i => if feq a[i] b[i] then BitVec.allOnes _ else 0#_,
    binaryFallback_ok hidx a b _ (by intro i hi; simp [hfn, Fn.eval, hk]), fun i hi => ?_⟩
  rw [← feq_iff h0]
  simp only [Vector.getElem_ofFn, Fin.getElem_fin]
  constructor
  · intro h k hk'
    rw [if_pos h]; simp [hk']
  · intro h k hk'
    rw [if_neg h]; simp

/-- The specification determines the mask, so both versions return the same one. -/
theorem C65_unique {a b v v' : Vector (BitVec n) w} (h : IsFloatEqMask a b v)
    (h' : IsFloatEqMask a b v') : v = v' := by
  ext i hi k hk
  rw [← BitVec.getLsbD_eq_getElem, ← BitVec.getLsbD_eq_getElem]
  by_cases he : ieee a[i] ≠ .nan ∧ ieee a[i] = ieee b[i]
  · rw [(h i hi).1 he k hk, (h' i hi).1 he k hk]
  · rw [(h i hi).2 he k hk, (h' i hi).2 he k hk]

/-- Non-vacuity: the two zeros are equal although their bits differ; 1.0 is not NaN;
a NaN exists. -/
example : ieee (0x80000000#32) = ieee (0#32) ∧ ieee (0x7FC00000#32) = .nan ∧
    ieee (0x3F800000#32) = .fin 1 ∧ ieee (0xC0200000#32) = .fin (-5 / 2) := by
  simp [ieee]
  norm_num [BitVec.msb_eq_decide]


/-! ### C66: minima and maxima of floats -/

/-- Specification of `min` (`isMax = false`) and `max` for float lanes: one of the
operands; its value is not above (below) either of them; if only one operand is a
number, that one. -/
def IsFloatExtreme (isMax : Bool) (a b r : BitVec n) : Prop :=
  (r = a ∨ r = b) ∧
  (ieee a ≠ .nan → ieee b ≠ .nan →
    if isMax then (ieee a).le (ieee r) ∧ (ieee b).le (ieee r)
    else (ieee r).le (ieee a) ∧ (ieee r).le (ieee b)) ∧
  (ieee a = .nan → ieee b ≠ .nan → r = b) ∧
  (ieee a ≠ .nan → ieee b = .nan → r = a)

theorem flt_iff (hn : n = 32 ∨ n = 64) (a b : BitVec n) :
    flt a b = true ↔ ieee a ≠ .nan ∧ ieee b ≠ .nan ∧ ¬ (ieee b).le (ieee a) := by
  unfold flt
  simp only [Bool.and_eq_true, Bool.not_eq_true', decide_eq_true_eq]
  rw [← Bool.not_eq_true, ← Bool.not_eq_true, fnan_iff hn, fnan_iff hn]
  constructor
  · rintro ⟨⟨ha, hb⟩, hk⟩
    exact ⟨ha, hb, by rw [ieee_le_iff hn hb ha]; omega⟩
  · rintro ⟨ha, hb, hk⟩
    exact ⟨⟨ha, hb⟩, by rw [ieee_le_iff hn hb ha] at hk; omega⟩

theorem FVal.le_total {a b : FVal} (ha : a ≠ .nan) (hb : b ≠ .nan) : a.le b ∨ b.le a := by
  cases a <;> cases b
  all_goals first | exact absurd rfl ha | exact absurd rfl hb | skip
  · rename_i s t; cases s <;> cases t <;> simp [FVal.le]
  · rename_i s t; cases s <;> simp [FVal.le]
  · rename_i s t; cases t <;> simp [FVal.le]
  · exact _root_.le_total _ _

theorem FVal.le_refl {a : FVal} (ha : a ≠ .nan) : a.le a := (FVal.le_total ha ha).elim id id

theorem fminScalar_extreme (hn : n = 32 ∨ n = 64) (a b : BitVec n) :
    IsFloatExtreme false a b (fminScalar a b) := by
  have hl := flt_iff hn a b
  unfold fminScalar IsFloatExtreme
  by_cases ha : ieee a = .nan
  · simp [ha, (fnan_iff hn a).2 ha]
  · have ha' : ¬ fnan a = true := fun h => ha ((fnan_iff hn a).1 h)
    by_cases hb : ieee b = .nan
    · simp [ha, hb, ha', (fnan_iff hn b).2 hb]
    · have hb' : ¬ fnan b = true := fun h => hb ((fnan_iff hn b).1 h)
      rw [if_neg ha', if_neg hb']
      have h1 := FVal.le_refl ha
      have h2 := FVal.le_refl hb
      have h3 := FVal.le_total ha hb
      split
      · rename_i h
        have := (hl.1 h).2.2
        simp_all
      · rename_i h
        rw [hl] at h
        simp_all

theorem fmaxScalar_extreme (hn : n = 32 ∨ n = 64) (a b : BitVec n) :
    IsFloatExtreme true a b (fmaxScalar a b) := by
  have hl := flt_iff hn b a
  unfold fmaxScalar IsFloatExtreme
  by_cases ha : ieee a = .nan
  · simp [ha, (fnan_iff hn a).2 ha]
  · have ha' : ¬ fnan a = true := fun h => ha ((fnan_iff hn a).1 h)
    by_cases hb : ieee b = .nan
    · simp [ha, hb, ha', (fnan_iff hn b).2 hb]
    · have hb' : ¬ fnan b = true := fun h => hb ((fnan_iff hn b).1 h)
      rw [if_neg ha', if_neg hb']
      have h1 := FVal.le_refl ha
      have h2 := FVal.le_refl hb
      have h3 := FVal.le_total ha hb
      split
      · rename_i h
        have := (hl.1 h).2.2
        simp_all
      · rename_i h
        rw [hl] at h
        simp_all

/-- The instructions return the second operand as soon as one is NaN. -/
theorem minF_nan (hn : n = 32 ∨ n = 64) {a b : BitVec n} (h : ieee a = .nan ∨ ieee b = .nan) :
    X86.minF a b = b ∧ X86.maxF a b = b := by
  constructor
  · unfold X86.minF
    rw [if_neg]
    rw [flt_iff hn]
    tauto
  · unfold X86.maxF
    rw [if_neg]
    rw [flt_iff hn]
    tauto

/-- Otherwise they agree with the scalar functions. -/
theorem minF_eq (hn : n = 32 ∨ n = 64) {a b : BitVec n} (ha : ieee a ≠ .nan) (hb : ieee b ≠ .nan) :
    X86.minF a b = fminScalar a b ∧ X86.maxF a b = fmaxScalar a b := by
  rw [Ne, ← fnan_iff hn] at ha hb
  unfold X86.minF X86.maxF fminScalar fmaxScalar
  rw [if_neg ha, if_neg ha, if_neg hb, if_neg hb]
  exact ⟨rfl, rfl⟩

theorem cmpRows_float : ∀ r ∈ cmpRows, r.kind = .f → r.idx = List.range r.width ∧
    (8 * r.size = 32 ∨ 8 * r.size = 64) ∧
    ((r.fn = .min ∧ r.mm.lanes = some ⟨8 * r.size * r.width, 8 * r.size, .minF⟩) ∨
     (r.fn = .max ∧ r.mm.lanes = some ⟨8 * r.size * r.width, 8 * r.size, .maxF⟩)) := by
  decide +kernel

theorem cmpRowsUnknown_float : ∀ r ∈ cmpRowsUnknown, r.kind = .f → r.idx = List.range r.width ∧
    (8 * r.size = 32 ∨ 8 * r.size = 64) ∧ (r.fn = .min ∨ r.fn = .max) := by
  decide +kernel

example : (cmpRows.filter fun r => r.kind = .f).length = 8 ∧
    (cmpRowsUnknown.filter fun r => r.kind = .f).length = 8 := by decide

/-- C66: the fallbacks return the smaller or larger value, or the only number. -/
theorem C66_fallback (c : Cfg) (r : BinRow) (hr : r ∈ cmpRows ∨ r ∈ cmpRowsUnknown)
    (hk : r.kind = .f) (a b : Vector (BitVec (8 * r.size)) r.width) :
    ∃ v, binaryFallback (r.fn.eval c r.kind) r.idx a b = ok v ∧ ∀ i (hi : i < r.width),
      IsFloatExtreme (r.fn == .max) a[i] b[i] v[i] := by
  obtain ⟨hidx, h0, hfn⟩ : r.idx = List.range r.width ∧ (8 * r.size = 32 ∨ 8 * r.size = 64) ∧
      (r.fn = .min ∨ r.fn = .max) := by
    rcases hr with hr | hr
    · obtain ⟨h1, h2, h⟩ := cmpRows_float r hr hk
      exact ⟨h1, h2, h.imp And.left And.left⟩
    · exact cmpRowsUnknown_float r hr hk
  rcases hfn with hfn | hfn
  · refine ⟨Vector.ofFn fun i => fminScalar a[i] b[i],
      binaryFallback_ok hidx a b _ (by intro i hi; simp [hfn, Fn.eval, hk]), fun i hi => ?_⟩
    rw [hfn]
    rw [Vector.getElem_ofFn]
    exact fminScalar_extreme h0 a[i] b[i]
  · refine ⟨Vector.ofFn fun i => fmaxScalar a[i] b[i],
      binaryFallback_ok hidx a b _ (by intro i hi; simp [hfn, Fn.eval, hk]), fun i hi => ?_⟩
    rw [hfn]
    rw [Vector.getElem_ofFn]
    exact fmaxScalar_extreme h0 a[i] b[i]

/-- C66: a lane of the instructions' result is as specified exactly if the second
operand is a number or the first is not; in the remaining case it is NaN although one
operand is a number. (Partial: the property asks for the specification in every
case.) -/
theorem C66_optimized_partial (r : BinRow) (hr : r ∈ cmpRows) (hk : r.kind = .f)
    (a b : Vector (BitVec (8 * r.size)) r.width) :
    ∃ v, binaryInstr r.mm a b = ok v ∧ ∀ i (hi : i < r.width),
      (IsFloatExtreme (r.fn == .max) a[i] b[i] v[i] ↔
        ¬ (ieee a[i] ≠ .nan ∧ ieee b[i] = .nan)) ∧
      (ieee a[i] = .nan ∨ ieee b[i] = .nan → v[i] = b[i]) := by
  obtain ⟨-, h0, h⟩ := cmpRows_float r hr hk
  rcases h with ⟨hfn, hl⟩ | ⟨hfn, hl⟩
  · refine ⟨_, binaryInstr_eq hl rfl rfl (show 0 < 8 * r.size by omega) a b, fun i hi => ?_⟩
    rw [hfn]
    simp only [X86.lanewise, Vector.getElem_ofFn, Fin.getElem_fin, LaneOp.eval]
    refine ⟨?_, fun h => (minF_nan h0 h).1⟩
    constructor
    · rintro h ⟨h1, h2⟩
      have := h.2.2.2 h1 h2
      rw [(minF_nan h0 (.inr h2)).1] at this
      rw [this] at h2
      exact h1 h2
    · intro h
      by_cases h1 : ieee a[i] = .nan
      · rw [(minF_nan h0 (.inl h1)).1]
        exact ⟨.inr rfl, fun h => absurd h1 h, fun _ _ => rfl, fun h => absurd h1 h⟩
      · have h2 : ieee b[i] ≠ .nan := fun h2 => h ⟨h1, h2⟩
        rw [(minF_eq h0 h1 h2).1]
        exact fminScalar_extreme h0 _ _
  · refine ⟨_, binaryInstr_eq hl rfl rfl (show 0 < 8 * r.size by omega) a b, fun i hi => ?_⟩
    rw [hfn]
    simp only [X86.lanewise, Vector.getElem_ofFn, Fin.getElem_fin, LaneOp.eval]
    refine ⟨?_, fun h => (minF_nan h0 h).2⟩
    constructor
    · rintro h ⟨h1, h2⟩
      have := h.2.2.2 h1 h2
      rw [(minF_nan h0 (.inr h2)).2] at this
      rw [this] at h2
      exact h1 h2
    · intro h
      by_cases h1 : ieee a[i] = .nan
      · rw [(minF_nan h0 (.inl h1)).2]
        exact ⟨.inr rfl, fun h => absurd h1 h, fun _ _ => rfl, fun h => absurd h1 h⟩
      · have h2 : ieee b[i] ≠ .nan := fun h2 => h ⟨h1, h2⟩
        rw [(minF_eq h0 h1 h2).2]
        exact fmaxScalar_extreme h0 _ _

/-- C66 is false: `f32x4(1.0).min(f32x4(NaN))` is NaN with SSE and 1.0 without. -/
theorem C66_false :
    binaryInstr .mm_min_ps (Vector.replicate 4 0x3F800000#32) (Vector.replicate 4 0x7FC00000#32) =
      ok (Vector.replicate 4 0x7FC00000#32) ∧
    binaryFallback (Fn.min.eval release64 .f) [0, 1, 2, 3] (Vector.replicate 4 0x3F800000#32)
      (Vector.replicate 4 0x7FC00000#32) = ok (Vector.replicate 4 0x3F800000#32) ∧
    ieee (0x3F800000#32) = .fin 1 ∧ ieee (0x7FC00000#32) = .nan := by
  refine ⟨by decide +kernel, by decide +kernel, ?_, ?_⟩
  · simp [ieee]; norm_num [BitVec.msb_eq_decide]
  · simp [ieee]

/-- Non-vacuity: infinities and signs. -/
example : IsFloatExtreme false (0xFF800000#32) (0x3F800000#32) (0xFF800000#32) := by
  have := fminScalar_extreme (.inl rfl) (0xFF800000#32) (0x3F800000#32)
  exact this

end Faster
