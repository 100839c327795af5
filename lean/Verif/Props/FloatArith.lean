import Verif.Lemmas.Ieee
import Verif.Props.Rounding
import Mathlib.Analysis.Real.Sqrt
/-
The float arithmetic of `Verif/Intrin/Ieee.lean` is correctly rounded: every operation
returns the float nearest to the exact result.
-/
namespace Faster
open Res

variable {n k : Nat}

/-! ### Specification -/

/-- From here on numbers are rounded to infinity (IEEE 754, section 4.3.1): half a unit
in the last place above the largest finite number. -/
noncomputable def fLimit (n : Nat) : ℝ := if n = 32 then 2 ^ 128 - 2 ^ 103 else 2 ^ 1024 - 2 ^ 970

/-- `r` is the exact result `v` rounded to nearest, ties to even: no finite float is
closer; if another one is as close, the last bit of `r` is zero; the sign is that of
`v`; numbers beyond the limit become infinite. -/
def IsRoundOf (v : ℝ) (r : BitVec n) : Prop :=
  (v ≠ 0 → (r.msb = true ↔ v < 0)) ∧
  match ieee r with
  | .nan => False
  | .inf _ => fLimit n ≤ |v|
  | .fin a => |v| < fLimit n ∧
    (∀ (y : BitVec n) b, ieee y = .fin b → |v - a| ≤ |v - b|) ∧
    (∀ (y : BitVec n) b, ieee y = .fin b → b ≠ a → |v - b| = |v - a| → r.getLsbD 0 = false)

/-! ### From midpoints to the specification -/

/-- The number `x` of units is between the midpoints from the magnitude `E` to its
neighbours, on one of them only if `E` is even. -/
def Mid (m : Nat) (x : ℝ) (E : Nat) : Prop :=
  2 * x ≤ (funits m E + funits m (E + 1) : ℝ) ∧
  (2 * x = (funits m E + funits m (E + 1) : ℝ) → E % 2 = 0) ∧
  (0 < E → (funits m (E - 1) + funits m E : ℝ) ≤ 2 * x ∧
    ((funits m (E - 1) + funits m E : ℝ) = 2 * x → E % 2 = 0))

theorem roundUnits_Mid {m : Nat} (hm : 0 < m) (p : Nat) {d : Nat} (hd : 0 < d) :
    Mid m (p / d) (roundUnits m p d) := by
  obtain ⟨h1, h2, h3⟩ := roundUnits_mid hm p hd
  generalize roundUnits m p d = E at *
  have hdr : (0 : ℝ) < d := by exact_mod_cast hd
  have e : 2 * ((p : ℝ) / d) = (2 * p) / d := by ring
  refine ⟨?_, ?_, fun h => ⟨?_, ?_⟩⟩
  · rw [e, div_le_iff₀ hdr]
    have : ((2 * p : ℕ) : ℝ) ≤ ((d * (funits m E + funits m (E + 1)) : ℕ) : ℝ) := by
      exact_mod_cast h1
    push_cast at this
    linarith
  · intro h
    rw [e, div_eq_iff hdr.ne'] at h
    apply h2
    have : ((2 * p : ℕ) : ℝ) = ((d * (funits m E + funits m (E + 1)) : ℕ) : ℝ) := by
      push_cast; linarith
    exact_mod_cast this
  · rw [e, le_div_iff₀ hdr]
    have : ((d * (funits m (E - 1) + funits m E) : ℕ) : ℝ) ≤ ((2 * p : ℕ) : ℝ) := by
      exact_mod_cast (h3 h).1
    push_cast at this
    linarith
  · intro h'
    rw [e, eq_div_iff hdr.ne'] at h'
    apply (h3 h).2
    have : ((d * (funits m (E - 1) + funits m E) : ℕ) : ℝ) = ((2 * p : ℕ) : ℝ) := by
      push_cast; linarith
    exact_mod_cast this

theorem funits_real_le {m s t : Nat} (h : s ≤ t) : (funits m s : ℝ) ≤ funits m t := by
  exact_mod_cast (funits_strictMono m).monotone h

theorem funits_real_lt {m s t : Nat} (h : s < t) : (funits m s : ℝ) < funits m t := by
  exact_mod_cast funits_strictMono m h

theorem Mid.nearest {m E : Nat} {x : ℝ} (h : Mid m x E) (t : Nat) :
    |x - funits m E| ≤ |x - funits m t| := by
  obtain ⟨h1, -, h3⟩ := h
  rcases Nat.lt_trichotomy t E with h | h | h
  · have h3 := (h3 (by omega)).1
    have ht := funits_real_le (m := m) (show t ≤ E - 1 by omega)
    have ht' := funits_real_lt (m := m) h
    rw [abs_of_nonneg (a := x - funits m t) (by linarith), abs_le]
    constructor <;> linarith
  · rw [h]
  · have ht := funits_real_le (m := m) (show E + 1 ≤ t by omega)
    have ht' := funits_real_lt (m := m) h
    rw [abs_of_nonpos (a := x - funits m t) (by linarith), abs_le]
    constructor <;> linarith

theorem Mid.tie {m E : Nat} {x : ℝ} (h : Mid m x E) {t : Nat} (hne : t ≠ E)
    (he : |x - funits m t| = |x - funits m E|) : E % 2 = 0 := by
  obtain ⟨h1, h2, h3⟩ := h
  rcases Nat.lt_or_gt_of_ne hne with h | h
  · obtain ⟨h3, h4⟩ := h3 (by omega)
    have ht := funits_real_le (m := m) (show t ≤ E - 1 by omega)
    have ht' := funits_real_lt (m := m) h
    rw [abs_of_nonneg (a := x - funits m t) (by linarith)] at he
    apply h4
    rcases abs_cases (x - funits m E) with ⟨ha, -⟩ | ⟨ha, -⟩ <;> linarith
  · have ht := funits_real_le (m := m) (show E + 1 ≤ t by omega)
    have ht' := funits_real_lt (m := m) h
    rw [abs_of_nonpos (a := x - funits m t) (by linarith)] at he
    apply h2
    rcases abs_cases (x - funits m E) with ⟨ha, -⟩ | ⟨ha, -⟩ <;> linarith

/-- The limit in units: the midpoint between the largest finite number and the number
that the bits of infinity would stand for. -/
theorem fLimit_units (hn : n = 32 ∨ n = 64) :
    2 * (fLimit n * 2 ^ fone n) =
      (funits (mantBits n) (infBits n - 1) + funits (mantBits n) (infBits n) : ℝ) ∧
    infBits n % 2 = 0 ∧ 0 < infBits n ∧ infBits n < 2 ^ (n - 1) ∧ 0 < mantBits n := by
  rcases hn with rfl | rfl
  · have h1 : funits (mantBits 32) (infBits 32 - 1) = (2 ^ 24 - 1) * 2 ^ 253 := by decide +kernel
    have h2 : funits (mantBits 32) (infBits 32) = 2 ^ 277 := by decide +kernel
    refine ⟨?_, by decide, by decide, by decide, by decide⟩
    rw [h1, h2, show fLimit 32 = 2 ^ 128 - 2 ^ 103 by simp [fLimit], show fone 32 = 149 from rfl,
      Nat.cast_mul, Nat.cast_sub (Nat.one_le_two_pow), Nat.cast_pow, Nat.cast_pow, Nat.cast_pow,
      Nat.cast_one, Nat.cast_ofNat, sub_mul, sub_mul, ← pow_add, ← pow_add, ← pow_add, one_mul,
      show 103 + 149 = 252 from rfl, show 128 + 149 = 277 from rfl,
      show 253 = 252 + 1 from rfl, pow_succ (2 : ℝ) 252]
    generalize (2 : ℝ) ^ 277 = A
    generalize (2 : ℝ) ^ 252 = B
    ring
  · have h1 : funits (mantBits 64) (infBits 64 - 1) = (2 ^ 53 - 1) * 2 ^ 2045 := by decide +kernel
    have h2 : funits (mantBits 64) (infBits 64) = 2 ^ 2098 := by decide +kernel
    refine ⟨?_, by decide, by decide, by decide, by decide⟩
    rw [h1, h2, show fLimit 64 = 2 ^ 1024 - 2 ^ 970 by simp [fLimit], show fone 64 = 1074 from rfl,
      Nat.cast_mul, Nat.cast_sub (Nat.one_le_two_pow), Nat.cast_pow, Nat.cast_pow, Nat.cast_pow,
      Nat.cast_one, Nat.cast_ofNat, sub_mul, sub_mul, ← pow_add, ← pow_add, ← pow_add, one_mul,
      show 970 + 1074 = 2044 from rfl, show 1024 + 1074 = 2098 from rfl,
      show 2045 = 2044 + 1 from rfl, pow_succ (2 : ℝ) 2044]
    generalize (2 : ℝ) ^ 2098 = A
    generalize (2 : ℝ) ^ 2044 = B
    ring

/-- Value of a finite float. -/
theorem ieee_fin (hn : n = 32 ∨ n = 64) {x : BitVec n} (h : fmag x < infBits n) :
    ieee x = .fin (fsign x * ((fnum x : ℚ) / 2 ^ fone n)) := by
  rw [ieee_eq (IsFormat.of hn), if_neg (by unfold fnan; simp; omega), if_neg (by omega)]
  rfl

theorem fin_ieee (hn : n = 32 ∨ n = 64) {x : BitVec n} {a : ℚ} (h : ieee x = .fin a) :
    fmag x < infBits n ∧ a = fsign x * ((fnum x : ℚ) / 2 ^ fone n) := by
  have h' := h
  rw [ieee_eq (IsFormat.of hn)] at h
  split at h
  · exact absurd h (by simp)
  · rename_i h1
    split at h
    · exact absurd h (by simp)
    · rename_i h2
      have hlt : fmag x < infBits n := by
        unfold fnan at h1
        simp only [decide_eq_true_eq] at h1
        omega
      refine ⟨hlt, ?_⟩
      rw [ieee_fin hn hlt] at h'
      injection h' with h'
      exact h'.symm

/-- The sign as a number. -/
theorem sign_real (s : Bool) : |(if s then -1 else 1 : ℝ)| = 1 := by cases s <;> simp

theorem pack_spec (hn : n = 32 ∨ n = 64) (neg : Bool) {x : ℝ} (hx : 0 ≤ x) {E : Nat}
    (h : Mid (mantBits n) x E) (r : BitVec n)
    (hr : r = BitVec.ofNat n ((if neg then 2 ^ (n - 1) else 0) + min E (infBits n))) :
    IsRoundOf ((if neg then -1 else 1) * (x / 2 ^ fone n)) r ∧ r.msb = neg := by
  obtain ⟨hlim, heven, hpos, hhalf, hm⟩ := fLimit_units hn
  have hlt : min E (infBits n) < 2 ^ (n - 1) := by omega
  obtain ⟨hs, hmag⟩ := ofNat_sign_mag (n := n) (by omega) neg hlt
  rw [← hr] at hs hmag
  refine ⟨?_, hs⟩
  have hu : (0 : ℝ) < 2 ^ fone n := by positivity
  have habs : |(if neg then -1 else 1 : ℝ) * (x / 2 ^ fone n)| = x / 2 ^ fone n := by
    rw [abs_mul, sign_real, one_mul, abs_of_nonneg (by positivity)]
  refine ⟨fun hv => ?_, ?_⟩
  · rw [hs]
    have hx' : 0 < x / 2 ^ fone n := by
      rcases hx.lt_or_eq with h | h
      · positivity
      · rw [← h] at hv; simp at hv
    cases neg
    · simp only [Bool.false_eq_true, if_false, one_mul, false_iff, not_lt]; exact hx'.le
    · simp only [if_true, neg_one_mul, true_iff]; linarith
  rcases Nat.lt_or_ge E (infBits n) with hE | hE
  · rw [Nat.min_eq_left hE.le] at hmag
    rw [ieee_fin hn (by omega)]
    simp only
    rw [habs]
    have hfn : fnum r = funits (mantBits n) E := by unfold fnum; rw [hmag]
    have hfs : ((fsign r : ℚ) : ℝ) = if neg then -1 else 1 := by
      unfold fsign; rw [hs]; cases neg <;> simp
    have hLSB : E % 2 = 0 → r.getLsbD 0 = false := by
      intro h2
      have e : r.toNat = (if neg then 2 ^ (n - 1) else 0) + E := by
        rw [toNat_sign_mag (by omega) r, hs, hmag]
      have h2n : 2 ^ (n - 1) % 2 = 0 := by rcases hn with rfl | rfl <;> decide
      rw [BitVec.getLsbD, Nat.testBit_zero, e]
      cases neg <;> simp <;> omega
    have ha : ((fsign r * ((fnum r : ℚ) / 2 ^ fone n) : ℚ) : ℝ) =
        (if neg then -1 else 1) * ((funits (mantBits n) E : ℝ) / 2 ^ fone n) := by
      push_cast
      rw [hfs, hfn]
    rw [ha]
    have hda : |(if neg then -1 else 1 : ℝ) * (x / 2 ^ fone n) -
        (if neg then -1 else 1) * ((funits (mantBits n) E : ℝ) / 2 ^ fone n)| =
        |x - funits (mantBits n) E| / 2 ^ fone n := by
      rw [← mul_sub, abs_mul, sign_real, one_mul, ← sub_div, abs_div, abs_of_pos hu]
    refine ⟨?_, ?_, ?_⟩
    · rw [div_lt_iff₀ hu]
      by_contra hc
      have h1 := h.1
      have f1 := funits_real_le (m := mantBits n) (show E ≤ infBits n - 1 by omega)
      have f2 := funits_real_le (m := mantBits n) (show E + 1 ≤ infBits n by omega)
      have hE' : E = infBits n - 1 := by
        by_contra hne
        have := funits_real_lt (m := mantBits n) (show E < infBits n - 1 by omega)
        linarith
      have := h.2.1 (by linarith)
      omega
    · intro y b hb
      obtain ⟨hy, rfl⟩ := fin_ieee hn hb
      rw [hda]
      push_cast
      have h1 : |x - fnum y| / 2 ^ fone n ≤
          |(if neg then -1 else 1 : ℝ) * (x / 2 ^ fone n) - fsign y * ((fnum y : ℝ) / 2 ^ fone n)| := by
        have hf : (0 : ℝ) ≤ fnum y := Nat.cast_nonneg _
        have e1 : x / 2 ^ fone n - (fnum y : ℝ) / 2 ^ fone n = (x - fnum y) / 2 ^ fone n := by ring
        have p1 : 0 ≤ x / 2 ^ fone n := by positivity
        have p2 : 0 ≤ (fnum y : ℝ) / 2 ^ fone n := by positivity
        rw [show |x - fnum y| / 2 ^ fone n = |x / 2 ^ fone n - (fnum y : ℝ) / 2 ^ fone n| by
          rw [e1, abs_div, abs_of_pos hu]]
        generalize x / 2 ^ fone n = X at *
        generalize (fnum y : ℝ) / 2 ^ fone n = Y at *
        have e2 : ((fsign y : ℚ) : ℝ) = if y.msb then -1 else 1 := by
          unfold fsign; cases y.msb <;> simp
        rw [e2]
        cases neg <;> cases y.msb <;> simp only [Bool.false_eq_true, if_true, if_false, one_mul,
          neg_one_mul]
        · exact le_refl _
        · rw [sub_neg_eq_add, abs_of_nonneg (by linarith : 0 ≤ X + Y), abs_le]
          constructor <;> linarith
        · rw [show -X - Y = -(X + Y) by ring, abs_neg, abs_of_nonneg (by linarith : 0 ≤ X + Y), abs_le]
          constructor <;> linarith
        · rw [show -X - -Y = -(X - Y) by ring, abs_neg]
      refine le_trans ?_ h1
      have := h.nearest (fmag y)
      exact div_le_div_of_nonneg_right this hu.le
    · intro y b hb hne heq
      obtain ⟨hy, rfl⟩ := fin_ieee hn hb
      rw [hda] at heq
      apply hLSB
      push_cast at heq
      have e2 : ((fsign y : ℚ) : ℝ) = if y.msb then -1 else 1 := by
        unfold fsign; cases y.msb <;> simp
      rw [e2] at heq
      have p2 : (0 : ℝ) ≤ fnum y := Nat.cast_nonneg _
      have e3 : ((if neg then -1 else 1 : ℝ) * (x / 2 ^ fone n) -
          (if y.msb then -1 else 1) * ((fnum y : ℝ) / 2 ^ fone n)) =
          ((if neg then -1 else 1 : ℝ) * x - (if y.msb then -1 else 1) * fnum y) / 2 ^ fone n := by ring
      rw [e3, abs_div, abs_of_pos hu, div_left_inj' hu.ne'] at heq
      have hnear := h.nearest (fmag y)
      have hnear0 := h.nearest 0
      rw [funits_zero, Nat.cast_zero, sub_zero, abs_of_nonneg hx] at hnear0
      change _ ≤ |x - (fnum y : ℝ)| at hnear
      -- either the magnitudes tie, or the number is zero
      have hcase : |x - (fnum y : ℝ)| = |x - funits (mantBits n) E| ∨ x = 0 := by
        generalize (fnum y : ℝ) = Y at *
        generalize (funits (mantBits n) E : ℝ) = A at *
        have key : |x + Y| = |x - A| → |x - Y| = |x - A| ∨ x = 0 := by
          intro hk
          rw [abs_of_nonneg (by linarith : 0 ≤ x + Y)] at hk
          rcases abs_cases (x - Y) with ⟨hb, -⟩ | ⟨hb, -⟩
          · left; rw [hb] at hnear ⊢; linarith
          · right; rw [hb] at hnear; linarith
        cases neg <;> cases hym : y.msb <;>
          simp only [hym, Bool.false_eq_true, if_true, if_false, one_mul, neg_one_mul] at heq
        · exact .inl heq
        · exact key (by rw [← heq]; congr 1; ring)
        · exact key (by rw [← heq, ← abs_neg]; congr 1; ring)
        · left; rw [← heq, ← abs_neg]; congr 1; ring
      rcases hcase with hc | hc
      · by_cases ht : fmag y = E
        · -- same magnitude: then both are zero
          exfalso
          have hfy : fnum y = funits (mantBits n) E := by unfold fnum; rw [ht]
          rw [hfy, ← hfn] at hne heq
          unfold fsign at hne
          rw [hs] at hne
          have hA : (0 : ℝ) ≤ fnum r := Nat.cast_nonneg _
          have hzero : (fnum r : ℝ) = 0 ∨ x = 0 ∨ y.msb = neg := by
            rw [hfn] at *
            generalize (funits (mantBits n) E : ℝ) = A at *
            cases neg <;> cases hym : y.msb <;>
              simp only [hym, Bool.false_eq_true, if_true, if_false, one_mul, neg_one_mul] at heq
            · simp
            · rw [sub_neg_eq_add, abs_of_nonneg (by linarith : 0 ≤ x + A)] at heq
              rcases abs_cases (x - A) with ⟨hb, -⟩ | ⟨hb, -⟩
              · left; linarith
              · right; left; linarith
            · rw [show -x - A = -(x + A) by ring, abs_neg, abs_of_nonneg (by linarith : 0 ≤ x + A)] at heq
              rcases abs_cases (x - A) with ⟨hb, -⟩ | ⟨hb, -⟩
              · left; linarith
              · right; left; linarith
            · simp
          rcases hzero with hz | hz | hz
          · apply hne
            have : (fnum r : ℚ) = 0 := by exact_mod_cast hz
            rw [this]; simp
          · rw [hz, zero_sub, abs_neg] at hnear0
            apply hne
            have hz0 : (fnum r : ℚ) = 0 := by
              have : (funits (mantBits n) E : ℝ) = 0 := by
                have h0 : (0 : ℝ) ≤ funits (mantBits n) E := Nat.cast_nonneg _
                rw [abs_of_nonneg h0] at hnear0
                linarith
              rw [hfn]
              exact_mod_cast this
            rw [hz0]; simp
          · exact hne (by rw [hz])
        · exact h.tie ht hc
      · rw [hc, zero_sub, abs_neg] at hnear0
        have h0 : (0 : ℝ) ≤ funits (mantBits n) E := Nat.cast_nonneg _
        rw [abs_of_nonneg h0] at hnear0
        have : E = 0 := by
          by_contra hne'
          have := funits_real_lt (m := mantBits n) (show 0 < E by omega)
          rw [funits_zero] at this
          push_cast at this
          linarith
        rw [this]
  · rw [Nat.min_eq_right hE] at hmag
    have hinf : ieee r = .inf neg := by
      rw [ieee_eq (IsFormat.of hn), if_neg (by unfold fnan; simp; omega), if_pos hmag, hs]
    rw [hinf]
    simp only
    rw [habs, le_div_iff₀ hu]
    have h3 := (h.2.2 (by omega)).1
    have f1 := funits_real_le (m := mantBits n) (show infBits n - 1 ≤ E - 1 by omega)
    have f2 := funits_real_le (m := mantBits n) hE
    linarith

/-- `fpack` rounds `p / d` units to nearest. -/
theorem fpack_spec (hn : n = 32 ∨ n = 64) (neg : Bool) (p : Nat) {d : Nat} (hd : 0 < d) :
    IsRoundOf ((if neg then -1 else 1) * ((p : ℝ) / d / 2 ^ fone n)) (fpack n neg p d) ∧
    (fpack n neg p d).msb = neg := by
  have hm := (fLimit_units hn).2.2.2.2
  exact pack_spec hn neg (by positivity) (roundUnits_Mid hm p hd) _ rfl

/-! ### The operations -/

theorem fnan_of_fin (hn : n = 32 ∨ n = 64) {x : BitVec n} {a : ℚ} (h : ieee x = .fin a) :
    fnan x = false ∧ finf x = false := by
  have := (fin_ieee hn h).1
  unfold fnan finf
  simp
  omega

theorem fint_eq (x : BitVec n) : ((fint x : ℤ) : ℚ) = fsign x * fnum x := by
  unfold fint fsign
  cases x.msb <;> simp

/-- A finite value as a multiple of the unit. -/
theorem fin_fint (hn : n = 32 ∨ n = 64) {x : BitVec n} {a : ℚ} (h : ieee x = .fin a) :
    (a : ℝ) = (fint x : ℝ) / 2 ^ fone n := by
  have h1 := (fin_ieee hn h).2
  rw [h1, ← mul_div_assoc, ← fint_eq]
  push_cast
  rfl

theorem fzero_facts (hn : n = 32 ∨ n = 64) (neg : Bool) :
    (fZero n neg).msb = neg ∧ ieee (fZero n neg) = .fin 0 := by
  obtain ⟨h1, h2⟩ := ofNat_sign_mag (n := n) (by omega) neg (mag := 0) (by positivity)
  refine ⟨h1, ?_⟩
  have hpos := (fLimit_units hn).2.2.1
  rw [ieee_fin hn (by rw [fZero, h2]; exact hpos)]
  unfold fnum
  rw [fZero, h2, funits_zero]
  simp

theorem finf_facts (hn : n = 32 ∨ n = 64) (neg : Bool) :
    (fInf n neg).msb = neg ∧ fmag (fInf n neg) = infBits n ∧ ieee (fInf n neg) = .inf neg := by
  obtain ⟨-, -, hpos, hhalf, -⟩ := fLimit_units hn
  obtain ⟨h1, h2⟩ := ofNat_sign_mag (n := n) (by omega) neg hhalf
  refine ⟨h1, h2, ?_⟩
  change (fInf n neg).msb = neg at h1
  change fmag (fInf n neg) = infBits n at h2
  rw [ieee_eq (IsFormat.of hn), if_neg, if_pos h2, h1]
  unfold fnan
  rw [h2]
  simp

theorem qnan_facts (hn : n = 32 ∨ n = 64) : ieee (qnan n) = .nan := by
  rw [← fnan_iff hn]
  rcases hn with rfl | rfl <;> decide

theorem fneg_facts (hn : n = 32 ∨ n = 64) (x : BitVec n) :
    (fneg x).msb = !x.msb ∧ fmag (fneg x) = fmag x := by
  obtain ⟨h1, h2⟩ := ofNat_sign_mag (n := n) (by omega) (!x.msb) (fmag_lt (by omega) x)
  have e : fneg x = BitVec.ofNat n ((if !x.msb then 2 ^ (n - 1) else 0) + fmag x) := by
    unfold fneg; cases x.msb <;> simp
  rw [← e] at h1 h2
  exact ⟨h1, h2⟩

/-- `-x` of a finite number. -/
theorem fneg_spec (hn : n = 32 ∨ n = 64) {x : BitVec n} {a : ℚ} (hx : ieee x = .fin a) :
    ieee (fneg x) = .fin (-a) := by
  obtain ⟨h1, h2⟩ := fneg_facts hn x
  obtain ⟨h3, rfl⟩ := fin_ieee hn hx
  rw [ieee_fin hn (by omega)]
  unfold fnum fsign
  rw [h1, h2]
  cases x.msb <;> simp

/-- Exact zero. -/
theorem isRoundOf_zero (hn : n = 32 ∨ n = 64) {r : BitVec n} (h : ieee r = .fin 0) :
    IsRoundOf 0 r := by
  obtain ⟨hlim, -, hpos, -, -⟩ := fLimit_units hn
  refine ⟨fun h => absurd rfl h, ?_⟩
  rw [h]
  refine ⟨?_, fun y b _ => by simp, fun y b hb hne he => ?_⟩
  · rw [abs_zero]
    have h1 : (0 : ℝ) ≤ funits (mantBits n) (infBits n - 1) := Nat.cast_nonneg _
    have h2 := funits_real_lt (m := mantBits n) hpos
    rw [funits_zero] at h2
    push_cast at h2
    have hu : (0 : ℝ) < 2 ^ fone n := by positivity
    by_contra hc
    have := mul_nonpos_of_nonpos_of_nonneg (not_lt.mp hc) hu.le
    linarith
  · simp at he; exact absurd he hne

theorem round_int (hn : n = 32 ∨ n = 64) (S : ℤ) (p d : Nat) (hd : 0 < d) (v : ℝ)
    (hv : v = (if S < 0 then -1 else 1) * ((p : ℝ) / d / 2 ^ fone n)) :
    IsRoundOf v (fpack n (decide (S < 0)) p d) := by
  rw [hv]
  have := (fpack_spec hn (decide (S < 0)) p hd).1
  simpa using this

/-- **Addition**: the exact sum, rounded. -/
theorem fadd_spec (hn : n = 32 ∨ n = 64) {x y : BitVec n} {a b : ℚ} (hx : ieee x = .fin a)
    (hy : ieee y = .fin b) : IsRoundOf (a + b) (fadd x y) := by
  obtain ⟨hx1, hx2⟩ := fnan_of_fin hn hx
  obtain ⟨hy1, hy2⟩ := fnan_of_fin hn hy
  rw [fin_fint hn hx, fin_fint hn hy, ← add_div, ← Int.cast_add]
  unfold fadd
  rw [hx1, hx2, hy1, hy2]
  simp only [Bool.or_self, Bool.false_eq_true, if_false]
  generalize fint x + fint y = S
  split
  · rename_i h
    rw [h]
    have := isRoundOf_zero hn (fzero_facts hn (x.msb && y.msb)).2
    simpa using this
  · rename_i h
    refine round_int hn S _ 1 (by omega) _ ?_
    rw [Nat.cast_one, div_one, Nat.cast_natAbs, Int.cast_abs]
    split
    · rename_i h'
      rw [abs_of_neg (by exact_mod_cast h')]; ring
    · rename_i h'
      rw [abs_of_nonneg (by exact_mod_cast not_lt.mp h')]; ring

/-- **Subtraction**. -/
theorem fsub_spec (hn : n = 32 ∨ n = 64) {x y : BitVec n} {a b : ℚ} (hx : ieee x = .fin a)
    (hy : ieee y = .fin b) : IsRoundOf (a - b) (fsub x y) := by
  have := fadd_spec hn hx (fneg_spec hn hy)
  unfold fsub
  push_cast at this
  rwa [← sub_eq_add_neg] at this

theorem sign_mul (s t : Bool) :
    (if s != t then -1 else 1 : ℝ) = (if s then -1 else 1) * (if t then -1 else 1) := by
  cases s <;> cases t <;> simp

theorem fin_real (hn : n = 32 ∨ n = 64) {x : BitVec n} {a : ℚ} (h : ieee x = .fin a) :
    (a : ℝ) = (if x.msb then -1 else 1) * ((fnum x : ℝ) / 2 ^ fone n) := by
  rw [(fin_ieee hn h).2]
  unfold fsign
  push_cast
  cases x.msb <;> simp

/-- **Multiplication**. -/
theorem fmul_spec (hn : n = 32 ∨ n = 64) {x y : BitVec n} {a b : ℚ} (hx : ieee x = .fin a)
    (hy : ieee y = .fin b) : IsRoundOf (a * b) (fmul x y) ∧ (fmul x y).msb = (x.msb != y.msb) := by
  obtain ⟨hx1, hx2⟩ := fnan_of_fin hn hx
  obtain ⟨hy1, hy2⟩ := fnan_of_fin hn hy
  unfold fmul
  rw [hx1, hx2, hy1, hy2]
  simp only [Bool.or_self, Bool.false_eq_true, if_false]
  have h := fpack_spec hn (x.msb != y.msb) (fnum x * fnum y) (d := 2 ^ fone n) (by positivity)
  refine ⟨?_, h.2⟩
  convert h.1 using 1
  rw [fin_real hn hx, fin_real hn hy, sign_mul]
  push_cast
  ring

/-- **Division** by a number other than zero. -/
theorem fdiv_spec (hn : n = 32 ∨ n = 64) {x y : BitVec n} {a b : ℚ} (hx : ieee x = .fin a)
    (hy : ieee y = .fin b) (h0 : b ≠ 0) :
    IsRoundOf (a / b) (fdiv x y) ∧ (fdiv x y).msb = (x.msb != y.msb) := by
  obtain ⟨hx1, hx2⟩ := fnan_of_fin hn hx
  obtain ⟨hy1, hy2⟩ := fnan_of_fin hn hy
  have hb := (fin_ieee hn hy).2
  have hy0 : fmag y ≠ 0 := by
    intro h
    rw [fnum, h, funits_zero] at hb
    simp at hb
    exact h0 hb
  have hny : 0 < fnum y := by
    unfold fnum
    have := funits_strictMono (mantBits n) (Nat.pos_of_ne_zero hy0)
    rwa [funits_zero] at this
  unfold fdiv
  rw [hx1, hx2, hy1, hy2]
  simp only [Bool.or_self, Bool.and_self, Bool.false_eq_true, if_false, Bool.false_or,
    Bool.and_eq_true, beq_iff_eq, hy0, and_false]
  have h := fpack_spec hn (x.msb != y.msb) (fnum x * 2 ^ fone n) hny
  refine ⟨?_, h.2⟩
  convert h.1 using 1
  rw [fin_real hn hx, fin_real hn hy, sign_mul]
  have hu : (0 : ℝ) < 2 ^ fone n := by positivity
  have hyr : (0 : ℝ) < fnum y := by exact_mod_cast hny
  push_cast
  cases x.msb <;> cases y.msb <;> simp <;> field_simp

/-- **Conversion** between the formats. -/
theorem fconv_spec (hn : n = 32 ∨ n = 64) (hk : k = 32 ∨ k = 64) {x : BitVec n} {a : ℚ}
    (hx : ieee x = .fin a) : IsRoundOf a (fconv k x) ∧ (fconv k x).msb = x.msb := by
  obtain ⟨hx1, hx2⟩ := fnan_of_fin hn hx
  unfold fconv
  rw [hx1, hx2]
  simp only [Bool.false_eq_true, if_false]
  have h := fpack_spec hk x.msb (fnum x * 2 ^ fone k) (d := 2 ^ fone n) (by positivity)
  refine ⟨?_, h.2⟩
  convert h.1 using 1
  rw [fin_real hn hx]
  push_cast
  field_simp

/-- **Conversion** from integers. -/
theorem fofInt_spec (hk : k = 32 ∨ k = 64) (z : ℤ) : IsRoundOf z (fofInt k z) := by
  unfold fofInt
  have h := (fpack_spec hk (decide (z < 0)) (z.natAbs * 2 ^ fone k) (d := 1) (by omega)).1
  convert h using 1
  have hu : (0 : ℝ) < 2 ^ fone k := by positivity
  rw [Nat.cast_one, div_one, Nat.cast_mul, Nat.cast_natAbs, Int.cast_abs]
  push_cast
  rw [mul_div_assoc, div_self hu.ne', mul_one]
  by_cases h' : z < 0
  · rw [abs_of_neg (by exact_mod_cast h')]; simp [h']
  · rw [abs_of_nonneg (by exact_mod_cast not_lt.mp h')]; simp [h']

/-- The root in units, between two integers. -/
theorem sqrt_Mid {m : Nat} (hm : 0 < m) {N : Nat} (hN : 2 ^ (2 * m + 6) ≤ N) :
    Mid m (Real.sqrt N) (roundUnits m
      (2 * Nat.sqrt N + if Nat.sqrt N * Nat.sqrt N = N then 0 else 1) 2) := by
  have hle : Nat.sqrt N * Nat.sqrt N ≤ N := Nat.sqrt_le N
  have hlt : N < (Nat.sqrt N + 1) * (Nat.sqrt N + 1) := Nat.lt_succ_sqrt N
  have hs : 2 ^ (m + 3) ≤ Nat.sqrt N := by
    rw [Nat.le_sqrt, ← Nat.pow_add]
    convert hN using 2
    ring
  generalize Nat.sqrt N = s at *
  have hlow : (s : ℝ) ≤ Real.sqrt N := by
    apply Real.le_sqrt_of_sq_le
    have : ((s * s : ℕ) : ℝ) ≤ N := by exact_mod_cast hle
    push_cast at this
    nlinarith
  split
  · rename_i h
    have e : Real.sqrt N = ((2 * s + 0 : ℕ) : ℝ) / (2 : ℕ) := by
      rw [← h]
      push_cast
      rw [Real.sqrt_mul_self (Nat.cast_nonneg s)]
      ring
    rw [e]
    exact roundUnits_Mid hm _ (by omega)
  · rename_i h
    have hlow' : (s : ℝ) < Real.sqrt N := by
      apply Real.lt_sqrt_of_sq_lt
      have : ((s * s : ℕ) : ℝ) < N := by exact_mod_cast lt_of_le_of_ne hle h
      push_cast at this
      nlinarith
    have hup : Real.sqrt N < s + 1 := by
      rw [Real.sqrt_lt' (by positivity)]
      have : (N : ℝ) < (((s + 1) * (s + 1) : ℕ) : ℝ) := by exact_mod_cast hlt
      push_cast at this
      nlinarith
    obtain ⟨h1, -, h3⟩ := roundUnits_mid hm (2 * s + 1) (d := 2) (by omega)
    have hF : funits m (2 ^ (m + 2)) = 2 ^ (m + 3) := by
      have := funits_level (m := m) (k := 3) (r := 2 ^ m) (by rw [Nat.pow_succ]; omega) (.inr (le_refl _))
      rw [show 3 * 2 ^ m + 2 ^ m = 2 ^ (m + 2) by rw [Nat.pow_add]; omega] at this
      rw [this, ← Nat.pow_add]
    have hE : 2 ^ (m + 2) ≤ roundUnits m (2 * s + 1) 2 := roundUnits_ge hm (by omega) (by omega)
    generalize roundUnits m (2 * s + 1) 2 = E at *
    rw [Nat.pow_succ] at hE
    have h0 : 0 < 2 ^ (m + 1) := Nat.pow_pos (by omega)
    have e1 := funits_even (m := m) (t := E) (by omega)
    have e2 := funits_even (m := m) (t := E + 1) (by omega)
    have e3 := funits_even (m := m) (t := E - 1) (by omega)
    have h3 := (h3 (by omega)).1
    have u1 : 2 * (s + 1) ≤ funits m E + funits m (E + 1) := by omega
    have u2 : funits m (E - 1) + funits m E ≤ 2 * s := by omega
    have u1' : (2 * (s + 1) : ℝ) ≤ funits m E + funits m (E + 1) := by exact_mod_cast u1
    have u2' : (funits m (E - 1) + funits m E : ℝ) ≤ 2 * s := by exact_mod_cast u2
    refine ⟨by linarith, fun he => ?_, fun _ => ⟨by linarith, fun he => ?_⟩⟩
    · exfalso; linarith
    · exfalso; linarith

/-- **Square root** of a number that is not negative. -/
theorem fsqrt_spec (hn : n = 32 ∨ n = 64) {x : BitVec n} {a : ℚ} (hx : ieee x = .fin a)
    (h0 : 0 ≤ a) : IsRoundOf (Real.sqrt a) (fsqrt x) := by
  obtain ⟨hx1, hx2⟩ := fnan_of_fin hn hx
  have ha := (fin_ieee hn hx).2
  unfold fsqrt
  rw [hx1, hx2]
  simp only [Bool.false_eq_true, if_false, beq_iff_eq]
  have hu : (0 : ℚ) < 2 ^ fone n := by positivity
  split
  · rename_i h
    have : a = 0 := by rw [ha, fnum, h, funits_zero]; simp
    rw [this] at hx ⊢
    rw [Rat.cast_zero, Real.sqrt_zero]
    exact isRoundOf_zero hn hx
  · rename_i h
    have hpos : 0 < fnum x := by
      unfold fnum
      have := funits_strictMono (mantBits n) (Nat.pos_of_ne_zero h)
      rwa [funits_zero] at this
    have hsx : x.msb = false := by
      by_contra hc
      rw [Bool.not_eq_false] at hc
      have : a < 0 := by
        rw [ha, fsign, if_pos hc, neg_one_mul, neg_lt_zero]
        have : (0 : ℚ) < fnum x := by exact_mod_cast hpos
        positivity
      linarith
    rw [hsx]
    simp only [Bool.false_eq_true, if_false]
    obtain ⟨-, -, -, -, hm⟩ := fLimit_units hn
    have hone : 2 * mantBits n + 6 ≤ fone n := by rcases hn with rfl | rfl <;> decide
    have hN : 2 ^ (2 * mantBits n + 6) ≤ fnum x * 2 ^ fone n :=
      (Nat.pow_le_pow_right (by omega) hone).trans (Nat.le_mul_of_pos_left _ hpos)
    have h := (pack_spec hn false (Real.sqrt_nonneg _) (sqrt_Mid hm hN) _ rfl).1
    unfold fpack
    convert h using 1
    simp only [Bool.false_eq_true, if_false, one_mul]
    have hur : (0 : ℝ) < 2 ^ fone n := by positivity
    rw [fin_real hn hx, hsx]
    push_cast
    simp only [one_mul]
    rw [eq_div_iff hur.ne', eq_comm, Real.sqrt_eq_iff_mul_self_eq (by positivity) (by positivity)]
    rw [mul_mul_mul_comm, Real.mul_self_sqrt (by positivity)]
    field_simp

/-! ### The specification determines the result -/

/-- Every key between those of the infinities belongs to a finite float. -/
theorem exists_fkey (hn : n = 32 ∨ n = 64) {z : ℤ} (h : z.natAbs < infBits n) :
    ∃ y : BitVec n, fkey y = z ∧ fmag y = z.natAbs := by
  obtain ⟨-, -, -, hhalf, -⟩ := fLimit_units hn
  obtain ⟨h1, h2⟩ := ofNat_sign_mag (n := n) (by omega) (decide (z < 0)) (mag := z.natAbs) (by omega)
  refine ⟨_, ?_, h2⟩
  unfold fkey
  rw [h1, h2]
  split
  · rename_i h; rw [decide_eq_true_eq] at h; omega
  · rename_i h; rw [decide_eq_true_eq] at h; omega

theorem fkey_natAbs (x : BitVec n) : (fkey x).natAbs = fmag x := by
  unfold fkey; split <;> omega

theorem lsb_fmag (hn : n = 32 ∨ n = 64) {x : BitVec n} (h : x.getLsbD 0 = false) :
    fmag x % 2 = 0 := by
  have e := toNat_sign_mag (n := n) (by omega) x
  rw [BitVec.getLsbD, Nat.testBit_zero, e] at h
  have h2n : 2 ^ (n - 1) % 2 = 0 := by rcases hn with rfl | rfl <;> decide
  cases hm : x.msb <;> simp [hm] at h <;> omega

theorem fin_lt_iff (hn : n = 32 ∨ n = 64) {x y : BitVec n} {a b : ℚ} (hx : ieee x = .fin a)
    (hy : ieee y = .fin b) : a < b ↔ fkey x < fkey y := by
  have h := ieee_le_iff hn (x := y) (y := x) (by simp [hy]) (by simp [hx])
  rw [hx, hy] at h
  change b ≤ a ↔ _ at h
  rw [← not_le, ← not_le, h]

theorem round_unique_aux (hn : n = 32 ∨ n = 64) {v : ℝ} {r s : BitVec n} {a b : ℚ}
    (ha : ieee r = .fin a) (hb : ieee s = .fin b) (hlt : a < b)
    (h1 : ∀ (y : BitVec n) c, ieee y = .fin c → |v - a| ≤ |v - c|)
    (h2 : ∀ (y : BitVec n) c, ieee y = .fin c → |v - b| ≤ |v - c|)
    (e1 : ∀ (y : BitVec n) c, ieee y = .fin c → c ≠ a → |v - c| = |v - a| → r.getLsbD 0 = false)
    (e2 : ∀ (y : BitVec n) c, ieee y = .fin c → c ≠ b → |v - c| = |v - b| → s.getLsbD 0 = false) :
    False := by
  have heq : |v - b| = |v - a| := le_antisymm (h2 r a ha) (h1 s b hb)
  have l1 := lsb_fmag hn (e1 s b hb hlt.ne' heq)
  have l2 := lsb_fmag hn (e2 r a ha hlt.ne heq.symm)
  have hk := (fin_lt_iff hn ha hb).1 hlt
  have fr := (fin_ieee hn ha).1
  have fs := (fin_ieee hn hb).1
  have kr := fkey_natAbs r
  have ks := fkey_natAbs s
  have hk2 : fkey r + 1 < fkey s := by omega
  obtain ⟨y, hy, hym⟩ := exists_fkey hn (z := fkey r + 1) (by omega)
  have hyf := ieee_fin hn (x := y) (by omega)
  generalize fsign y * ((fnum y : ℚ) / 2 ^ fone n) = c at hyf
  have g1 := (fin_lt_iff hn ha hyf).2 (by omega)
  have g2 := (fin_lt_iff hn hyf hb).2 (by omega)
  have g1' : (a : ℝ) < c := by exact_mod_cast g1
  have g2' : (c : ℝ) < b := by exact_mod_cast g2
  have n1 := h1 y c hyf
  have n2 := h2 y c hyf
  rcases abs_cases (v - b) with ⟨p1, p2⟩ | ⟨p1, p2⟩ <;>
    rcases abs_cases (v - a) with ⟨q1, q2⟩ | ⟨q1, q2⟩ <;>
    rcases abs_cases (v - c) with ⟨s1, s2⟩ | ⟨s1, s2⟩ <;> linarith

/-- Only one value satisfies the specification, and only one bit pattern unless the
exact result is zero. -/
theorem isRoundOf_unique (hn : n = 32 ∨ n = 64) {v : ℝ} {r s : BitVec n} (hr : IsRoundOf v r)
    (hs : IsRoundOf v s) : ieee r = ieee s ∧ (v ≠ 0 → r = s) := by
  have key : ieee r = ieee s ∨ (∃ a b, ieee r = .inf a ∧ ieee s = .inf b) := by
    have h1 := hr.2
    have h2 := hs.2
    cases ha : ieee r with
    | nan => rw [ha] at h1; exact h1.elim
    | inf x =>
      rw [ha] at h1
      cases hb : ieee s with
      | nan => rw [hb] at h2; exact h2.elim
      | inf y => exact .inr ⟨x, y, rfl, rfl⟩
      | fin b => rw [hb] at h2; exact absurd h2.1 (not_lt.mpr h1)
    | fin a =>
      rw [ha] at h1
      cases hb : ieee s with
      | nan => rw [hb] at h2; exact h2.elim
      | inf y => rw [hb] at h2; exact absurd h1.1 (not_lt.mpr h2)
      | fin b =>
        rw [hb] at h2
        rcases lt_trichotomy a b with h | h | h
        · exact (round_unique_aux hn ha hb h h1.2.1 h2.2.1 h1.2.2 h2.2.2).elim
        · exact .inl (by rw [h])
        · exact (round_unique_aux hn hb ha h h2.2.1 h1.2.1 h2.2.2 h1.2.2).elim
  have hinf : ∀ {x : BitVec n} {t}, ieee x = .inf t → x.msb = t := by
    intro x t h
    rw [ieee_eq (IsFormat.of hn)] at h
    split at h
    · exact absurd h (by simp)
    · split at h
      · injection h
      · exact absurd h (by simp)
  have hv0 : ∀ {x : BitVec n} {t}, ieee x = .inf t → fLimit n ≤ |v| → v ≠ 0 := by
    rintro x t - h rfl
    have h0 := (isRoundOf_zero hn (fzero_facts hn false).2).2
    rw [(fzero_facts hn false).2] at h0
    have := h0.1
    linarith
  have hval : ieee r = ieee s := by
    rcases key with h | ⟨a, b, ha, hb⟩
    · exact h
    · have h1 := hr.2
      rw [ha] at h1
      have hne := hv0 ha h1
      have e1 := hr.1 hne
      have e2 := hs.1 hne
      rw [hinf ha] at e1
      rw [hinf hb] at e2
      rw [ha, hb]
      congr 1
      rw [Bool.eq_iff_iff, e1, e2]
  refine ⟨hval, fun hne => ?_⟩
  refine bits_eq_of_ieee hn ?_ ?_ hval
  · intro h
    have := hr.2
    rw [h] at this
    exact this
  · rw [Bool.eq_iff_iff, hr.1 hne, hs.1 hne]

/-- A float is below the limit. -/
theorem fin_lt_limit (hn : n = 32 ∨ n = 64) {x : BitVec n} {a : ℚ} (hx : ieee x = .fin a) :
    |(a : ℝ)| < fLimit n := by
  obtain ⟨hlim, -, hpos, -, -⟩ := fLimit_units hn
  have hlt := (fin_ieee hn hx).1
  rw [fin_real hn hx, abs_mul, sign_real, one_mul, abs_of_nonneg (by positivity),
    div_lt_iff₀ (by positivity)]
  have h1 := funits_real_le (m := mantBits n) (show fmag x ≤ infBits n - 1 by omega)
  have h2 := funits_real_lt (m := mantBits n) (show infBits n - 1 < infBits n by omega)
  change (fnum x : ℝ) ≤ _ at h1
  linarith

/-- An exact result which is a float is returned as it is. -/
theorem isRoundOf_exact (hn : n = 32 ∨ n = 64) {x r : BitVec n} {a : ℚ} (hx : ieee x = .fin a)
    (h : IsRoundOf a r) : ieee r = .fin a := by
  have h2 := h.2
  cases hr : ieee r with
  | nan => rw [hr] at h2; exact h2.elim
  | inf t => rw [hr] at h2; exact absurd (fin_lt_limit hn hx) (not_lt.mpr h2)
  | fin b =>
    rw [hr] at h2
    have := h2.2.1 x a hx
    rw [sub_self, abs_zero, abs_nonpos_iff, sub_eq_zero] at this
    congr 1
    exact_mod_cast this.symm

/-! ### Infinities and NaN -/

/-- Neither NaN nor infinite. -/
def FVal.Finite : FVal → Prop
  | .fin _ => True
  | _ => False

theorem finite_iff (hn : n = 32 ∨ n = 64) (x : BitVec n) : (ieee x).Finite ↔ fmag x < infBits n := by
  constructor
  · intro h
    cases hx : ieee x with
    | nan => rw [hx] at h; exact h.elim
    | inf _ => rw [hx] at h; exact h.elim
    | fin a => exact (fin_ieee hn hx).1
  · intro h; rw [ieee_fin hn h]; trivial

theorem inf_iff (hn : n = 32 ∨ n = 64) (x : BitVec n) (t : Bool) :
    ieee x = .inf t ↔ finf x = true ∧ x.msb = t := by
  rw [ieee_eq (IsFormat.of hn)]
  unfold fnan finf
  constructor
  · intro h
    split at h
    · exact absurd h (by simp)
    · split at h
      · rename_i h'
        injection h with h
        exact ⟨by simpa using h', h⟩
      · exact absurd h (by simp)
  · rintro ⟨h, rfl⟩
    rw [beq_iff_eq] at h
    rw [if_neg (by simp; omega), if_pos h]

/-- A sum with a NaN or an infinity is not finite. -/
theorem fadd_absorbs (hn : n = 32 ∨ n = 64) {x y : BitVec n}
    (h : ¬ (ieee x).Finite ∨ ¬ (ieee y).Finite) : ¬ (ieee (fadd x y)).Finite := by
  have hq : ¬ (ieee (qnan n)).Finite := by rw [qnan_facts hn]; exact fun h => h
  rw [finite_iff hn, finite_iff hn] at h
  unfold fadd
  split
  · exact hq
  · rename_i h1
    simp only [Bool.or_eq_true, not_or, fnan, decide_eq_true_eq] at h1
    split
    · rename_i h2
      split
      · exact hq
      · rw [finite_iff hn]
        unfold finf at h2
        rw [beq_iff_eq] at h2
        omega
    · rename_i h2
      unfold finf at h2
      rw [beq_iff_eq] at h2
      split
      · rename_i h3
        unfold finf at h3
        rw [beq_iff_eq] at h3
        rw [finite_iff hn]
        omega
      · rename_i h3
        unfold finf at h3
        rw [beq_iff_eq] at h3
        omega

/-- `1.0 / 0.0`, `√∞` and `9.0 * ∞`: no operation removes an infinity. -/
theorem fdiv_zero (hn : n = 32 ∨ n = 64) {x y : BitVec n} {a : ℚ} (hx : ieee x = .fin a) (h0 : a ≠ 0)
    (hy : ieee y = .fin 0) : ieee (fdiv x y) = .inf (x.msb != y.msb) := by
  obtain ⟨hx1, hx2⟩ := fnan_of_fin hn hx
  obtain ⟨hy1, hy2⟩ := fnan_of_fin hn hy
  have zero : ∀ {z : BitVec n} {c : ℚ}, ieee z = .fin c → (fmag z = 0 ↔ c = 0) := by
    intro z c hz
    obtain ⟨-, rfl⟩ := fin_ieee hn hz
    constructor
    · intro h; rw [fnum, h, funits_zero]; simp
    · intro h
      by_contra hne
      have h1 : 0 < fnum z := by
        unfold fnum
        have := funits_strictMono (mantBits n) (Nat.pos_of_ne_zero hne)
        rwa [funits_zero] at this
      have h2 : (0 : ℚ) < (fnum z : ℚ) / 2 ^ fone n := by
        have : (0 : ℚ) < fnum z := by exact_mod_cast h1
        positivity
      rcases mul_eq_zero.mp h with h | h
      · unfold fsign at h; split at h <;> simp at h
      · exact h2.ne' h
  have hmx : fmag x ≠ 0 := fun h => h0 ((zero hx).1 h)
  have hmy : fmag y = 0 := (zero hy).2 rfl
  unfold fdiv
  rw [hx1, hx2, hy1, hy2, hmy]
  simp only [beq_iff_eq, hmx, Bool.or_self, Bool.and_self, Bool.false_eq_true, if_false,
    Bool.false_or, Bool.and_eq_true, false_and, BEq.rfl, if_true]
  exact (finf_facts hn _).2.2

theorem fsqrt_inf (hn : n = 32 ∨ n = 64) {x : BitVec n} (h : ieee x = .inf false) : fsqrt x = x := by
  obtain ⟨h1, h2⟩ := (inf_iff hn x false).1 h
  have hnan : fnan x = false := by
    rw [← Bool.not_eq_true, fnan_iff hn, h]; simp
  have hpos := (fLimit_units hn).2.2.1
  unfold fsqrt
  rw [hnan, h1, h2]
  unfold finf at h1
  rw [beq_iff_eq] at h1
  have : fmag x ≠ 0 := by omega
  simp [this]

theorem fmul_inf (hn : n = 32 ∨ n = 64) {x y : BitVec n} {a : ℚ} {t : Bool} (hx : ieee x = .fin a)
    (h0 : a ≠ 0) (hy : ieee y = .inf t) : ieee (fmul x y) = .inf (x.msb != t) := by
  obtain ⟨hx1, hx2⟩ := fnan_of_fin hn hx
  obtain ⟨h1, rfl⟩ := (inf_iff hn y t).1 hy
  have hnan : fnan y = false := by
    rw [← Bool.not_eq_true, fnan_iff hn, hy]; simp
  have hpos := (fLimit_units hn).2.2.1
  have hmy : fmag y ≠ 0 := by
    unfold finf at h1
    rw [beq_iff_eq] at h1
    omega
  have hmx : fmag x ≠ 0 := by
    intro h
    apply h0
    rw [(fin_ieee hn hx).2, fnum, h, funits_zero]
    simp
  unfold fmul
  rw [hx1, hx2, hnan, h1]
  simp only [Bool.or_self, Bool.false_eq_true, if_false, Bool.false_or, if_true, Bool.or_eq_true,
    beq_iff_eq, hmx, hmy, or_self]
  exact (finf_facts hn _).2.2

/-- Non-vacuity: 0.1 + 0.2, 1 / 3 and √2 in double precision. -/
example : fadd 0x3FB999999999999A#64 0x3FC999999999999A#64 = 0x3FD3333333333334#64 ∧
    fdiv 0x3FF0000000000000#64 0x4008000000000000#64 = 0x3FD5555555555555#64 ∧
    fsqrt 0x4000000000000000#64 = 0x3FF6A09E667F3BCD#64 := by decide +kernel

end Faster
