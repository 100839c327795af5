import Verif.Props.FloatUse
import Mathlib.Data.Nat.Log
/-
The relative error of rounding.
-/
namespace Faster
open Res

variable {n : Nat}

/-- The smallest normal number: all positive numbers from here on have `mantBits + 1`
significant digits. -/
noncomputable def fNormal (n : Nat) : ℝ := if n = 32 then 1 / 2 ^ 126 else 1 / 2 ^ 1022

theorem fNormal_units (hn : n = 32 ∨ n = 64) : fNormal n * 2 ^ fone n = 2 ^ mantBits n := by
  rcases hn with rfl | rfl
  · rw [show fNormal 32 = 1 / 2 ^ 126 by simp [fNormal], show fone 32 = 126 + 23 from rfl,
      show mantBits 32 = 23 from rfl]
    generalize 126 = p
    rw [pow_add, one_div, ← mul_assoc, inv_mul_cancel₀ (by positivity), one_mul]
  · rw [show fNormal 64 = 1 / 2 ^ 1022 by simp [fNormal], show fone 64 = 1022 + 52 from rfl,
      show mantBits 64 = 52 from rfl]
    generalize 1022 = p
    rw [pow_add, one_div, ← mul_assoc, inv_mul_cancel₀ (by positivity), one_mul]

theorem fTop_units (hn : n = 32 ∨ n = 64) :
    ∃ K, funits (mantBits n) (infBits n - 1) = (2 ^ (mantBits n + 1) - 1) * 2 ^ K ∧
      funits (mantBits n) (infBits n) = 2 ^ (mantBits n + 1 + K) := by
  rcases hn with rfl | rfl
  · exact ⟨253, by decide +kernel, by decide +kernel⟩
  · exact ⟨2045, by decide +kernel, by decide +kernel⟩

/-- **Relative error.** Between the smallest normal number and the overflow limit, rounding
changes a number by at most one part in 2^24 (`f32`) or 2^53 (`f64`). -/
theorem isRoundOf_rel (hn : n = 32 ∨ n = 64) {v : ℝ} {r : BitVec n} (h : IsRoundOf v r)
    (hlo : fNormal n ≤ |v|) (hhi : |v| < fLimit n) :
    ∃ b : ℚ, ieee r = .fin b ∧ |v - b| ≤ |v| / 2 ^ (mantBits n + 1) := by
  have h2 := h.2
  cases hr : ieee r with
  | nan => rw [hr] at h2; exact h2.elim
  | inf t => rw [hr] at h2; exact absurd hhi (not_lt.mpr h2)
  | fin b =>
    refine ⟨b, rfl, ?_⟩
    rw [hr] at h2
    have hu : (0 : ℝ) < 2 ^ fone n := by positivity
    -- the magnitude in units
    set x : ℝ := |v| * 2 ^ fone n with hx
    have hx0 : (2 : ℝ) ^ mantBits n ≤ x := by
      rw [← fNormal_units hn]
      exact mul_le_mul_of_nonneg_right hlo hu.le
    have hfl : 0 < ⌊x⌋₊ := Nat.floor_pos.mpr (le_trans (one_le_pow₀ (by norm_num)) hx0)
    -- its leading digit
    set L := Nat.log 2 ⌊x⌋₊ with hL
    have hm : mantBits n ≤ L := by
      have : 2 ^ mantBits n ≤ ⌊x⌋₊ := by
        apply Nat.le_floor
        push_cast
        exact hx0
      exact Nat.le_log_of_pow_le (by omega) this
    obtain ⟨k, hk⟩ := Nat.exists_eq_add_of_le hm
    have hlow : (2 : ℝ) ^ (mantBits n + k) ≤ x := by
      have h1 : 2 ^ L ≤ ⌊x⌋₊ := Nat.pow_log_le_self 2 hfl.ne'
      rw [hk] at h1
      have h2 : ((2 ^ (mantBits n + k) : ℕ) : ℝ) ≤ ⌊x⌋₊ := by exact_mod_cast h1
      push_cast at h2
      exact h2.trans (Nat.floor_le (by positivity))
    have hup : x < 2 ^ (mantBits n + k + 1) := by
      have h1 : ⌊x⌋₊ < 2 ^ (L + 1) := Nat.lt_pow_succ_log_self (by omega) _
      rw [hk] at h1
      have h2 := Nat.lt_of_floor_lt h1
      push_cast at h2
      exact h2
    have hK : (0 : ℝ) < 2 ^ k := by positivity
    -- the multiples of 2^k around it
    set m := ⌊x / 2 ^ k⌋₊ with hmdef
    have h5 : (m : ℝ) * 2 ^ k ≤ x := by
      have := Nat.floor_le (show 0 ≤ x / 2 ^ k by positivity)
      rwa [le_div_iff₀ hK] at this
    have h6 : x < (m + 1) * 2 ^ k := by
      have := Nat.lt_floor_add_one (x / 2 ^ k)
      rwa [div_lt_iff₀ hK] at this
    have hmle : m + 1 ≤ 2 ^ (mantBits n + 1) := by
      have : (m : ℝ) < 2 ^ (mantBits n + 1) := by
        have h7 : (m : ℝ) * 2 ^ k < 2 ^ (mantBits n + 1) * 2 ^ k := by
          refine lt_of_le_of_lt h5 ?_
          rw [← pow_add, show mantBits n + 1 + k = mantBits n + k + 1 by omega]
          exact hup
        exact lt_of_mul_lt_mul_right h7 hK.le
      exact_mod_cast this
    obtain ⟨hlim, -, hpos, -, -⟩ := fLimit_units hn
    have hstep : ∀ (q : ℕ), q ≤ 2 ^ (mantBits n + 1) →
        q * 2 ^ k < funits (mantBits n) (infBits n) →
        |v - b| ≤ |x - q * 2 ^ k| / 2 ^ fone n := by
      intro q hq hlt
      obtain ⟨y, hy1, hy2⟩ := exists_float hn (decide (v < 0)) hq hlt
      have h8 := h2.2.1 y _ hy2
      refine h8.trans (le_of_eq ?_)
      have e : |v| = x / 2 ^ fone n := by rw [hx]; field_simp
      have key : ∀ s : ℝ, |s| = 1 → v = s * |v| →
          |v - s * (q * 2 ^ k / 2 ^ fone n)| = |x - q * 2 ^ k| / 2 ^ fone n := by
        intro s hs hv
        conv_lhs => rw [hv, ← mul_sub, abs_mul, hs, one_mul, e, ← sub_div, abs_div, abs_of_pos hu]
      by_cases hv : v < 0
      · have := key (-1) (by simp) (by rw [abs_of_neg hv]; ring)
        rw [← this]
        simp only [hv, decide_true, if_true]
        push_cast
        rfl
      · have := key 1 (by simp) (by rw [abs_of_nonneg (not_lt.mp hv)]; ring)
        rw [← this]
        simp only [hv, decide_false, Bool.false_eq_true, if_false]
        push_cast
        rfl
    -- half a step is at most the bound
    have hbound : (2 : ℝ) ^ k / 2 / 2 ^ fone n ≤ |v| / 2 ^ (mantBits n + 1) := by
      have e : |v| = x / 2 ^ fone n := by rw [hx]; field_simp
      rw [e, div_div, div_div, div_le_div_iff₀ (by positivity) (by positivity)]
      rw [pow_add] at hlow
      rw [pow_succ]
      nlinarith [mul_le_mul_of_nonneg_right hlow (show (0 : ℝ) ≤ 2 * 2 ^ fone n by positivity)]
    have hxlim : 2 * x < (funits (mantBits n) (infBits n - 1) + funits (mantBits n) (infBits n) : ℝ) := by
      rw [← hlim]
      have := mul_lt_mul_of_pos_right hhi hu
      linarith
    have hstrict := funits_real_lt (m := mantBits n) (show infBits n - 1 < infBits n by omega)
    have hmlt : m * 2 ^ k < funits (mantBits n) (infBits n) := by
      have h9 : ((m * 2 ^ k : ℕ) : ℝ) < (funits (mantBits n) (infBits n) : ℕ) := by
        push_cast
        linarith
      exact_mod_cast h9
    refine le_trans ?_ hbound
    by_cases hhalf : x - m * 2 ^ k ≤ 2 ^ k / 2
    · refine (hstep m (by omega) hmlt).trans ?_
      rw [abs_of_nonneg (by linarith)]
      gcongr
    · push Not at hhalf
      have hlt1 : (m + 1) * 2 ^ k < funits (mantBits n) (infBits n) := by
        by_contra hc
        push Not at hc
        -- then `(m + 1) * 2^k` is the first number beyond the range and `x` is beyond the limit
        obtain ⟨K, hF1, hF⟩ := fTop_units hn
        have hkK : k ≤ K := by
          by_contra h'
          have h10 : (2 : ℝ) ^ (mantBits n + 1 + K) ≤ 2 ^ (mantBits n + k) :=
            pow_le_pow_right₀ (by norm_num) (by omega)
          rw [hF, Nat.cast_pow, Nat.cast_ofNat] at hstrict hxlim
          linarith
        have hdvd : 2 ^ k ∣ funits (mantBits n) (infBits n) := by
          rw [hF]; exact pow_dvd_pow 2 (by omega)
        obtain ⟨q, hq⟩ := hdvd
        rw [hq, Nat.mul_comm (2 ^ k) q] at hc hmlt
        have h11 := Nat.le_of_mul_le_mul_right hc (by positivity)
        have h12 := Nat.lt_of_mul_lt_mul_right hmlt
        have h13 : q = m + 1 := by omega
        rw [h13] at hq
        have h14 : (funits (mantBits n) (infBits n - 1) : ℝ) + 2 ^ k ≤ funits (mantBits n) (infBits n) := by
          have h15 : (2 : ℝ) ^ k ≤ 2 ^ K := pow_le_pow_right₀ (by norm_num) hkK
          have h16 : funits (mantBits n) (infBits n - 1) + 2 ^ K = funits (mantBits n) (infBits n) := by
            rw [hF1, hF, Nat.sub_mul, ← pow_add, one_mul]
            have : 2 ^ K ≤ 2 ^ (mantBits n + 1 + K) := Nat.pow_le_pow_right (by omega) (by omega)
            omega
          have h17 : ((funits (mantBits n) (infBits n - 1) + 2 ^ K : ℕ) : ℝ) =
            (funits (mantBits n) (infBits n) : ℕ) := by exact_mod_cast h16
          push_cast at h17
          linarith
        have h18 : (funits (mantBits n) (infBits n) : ℝ) = 2 ^ k * (m + 1) := by
          rw [hq]; push_cast; ring
        linarith
      have := hstep (m + 1) hmle hlt1
      push_cast at this
      refine this.trans ?_
      rw [abs_of_nonpos (by linarith)]
      gcongr
      linarith

/-! ### Reciprocal square roots -/

theorem fabs_facts (hn : n = 32 ∨ n = 64) {x : BitVec n} {a : ℚ} (hx : ieee x = .fin a) :
    (fabsScalar x).msb = false ∧ ieee (fabsScalar x) = .fin |a| := by
  have hlt : fmag x < 2 ^ (n - 1) := Nat.mod_lt _ (by positivity)
  obtain ⟨h1, h2⟩ := ofNat_sign_mag (n := n) (by omega) false hlt
  have e : fabsScalar x = BitVec.ofNat n ((if false then 2 ^ (n - 1) else 0) + fmag x) := by
    simp [fabsScalar, fmag]
  rw [← e] at h1 h2
  refine ⟨h1, ?_⟩
  obtain ⟨h3, h4⟩ := fin_ieee hn hx
  rw [ieee_fin hn (by rw [h2]; exact h3)]
  congr 1
  unfold fsign fnum at *
  rw [h1, h2, h4, abs_mul, abs_of_nonneg (a := (funits (mantBits n) (fmag x) : ℚ) / 2 ^ fone n) (by positivity)]
  have hs : |(if x.msb = true then -1 else 1 : ℚ)| = 1 := by split <;> simp
  rw [hs]
  simp

/-- What the processor manuals say about RSQRTPS: relative error at most 1.5 * 2^-12 for
positive normal numbers, and the reciprocal root of zero is infinite. -/
def IsRsqrt (f : BitVec 32 → BitVec 32) : Prop :=
  (∀ (x : BitVec 32) (a : ℚ), ieee x = .fin a → fNormal 32 ≤ a →
    ∃ b : ℚ, ieee (f x) = .fin b ∧ |(b : ℝ) * Real.sqrt a - 1| ≤ 1.5 / 2 ^ 12) ∧
  (∀ x : BitVec 32, ieee x = .fin 0 → x.msb = false → ieee (f x) = .inf false)

/-- The fallback is more precise than that. -/
theorem rsqrt_fallback : IsRsqrt (fun x => frecip (fsqrt x)) := by
  have hN : fNormal 32 = 1 / 2 ^ 126 := by simp [fNormal]
  have hL : fLimit 32 = 2 ^ 128 - 2 ^ 103 := by simp [fLimit]
  have hm : mantBits 32 + 1 = 24 := rfl
  refine ⟨fun x a hx hlo => ?_, fun x hx hs => ?_⟩
  · have ha : (0 : ℝ) < a := by rw [hN] at hlo; exact lt_of_lt_of_le (by positivity) hlo
    have ha' : (0 : ℚ) ≤ a := by exact_mod_cast ha.le
    have hlim := fin_lt_limit (.inl rfl) hx
    rw [abs_of_pos ha, hL] at hlim
    set S := Real.sqrt a with hS
    have hS1 : (1 : ℝ) / 2 ^ 63 ≤ S := by
      apply Real.le_sqrt_of_sq_le
      refine le_trans (le_of_eq ?_) (hN ▸ hlo)
      norm_num
    have hS2 : S ≤ 2 ^ 64 := by
      rw [hS, Real.sqrt_le_left (by positivity)]
      norm_num at hlim ⊢
      linarith
    have hS0 : 0 < S := lt_of_lt_of_le (by positivity) hS1
    obtain ⟨b, hb, he⟩ := isRoundOf_rel (.inl rfl) (fsqrt_spec (.inl rfl) hx ha')
      (by rw [hN, abs_of_pos hS0]; refine le_trans ?_ hS1; norm_num)
      (by rw [hL, abs_of_pos hS0]; refine lt_of_le_of_lt hS2 ?_; norm_num)
    rw [hm, ← hS, abs_of_pos hS0] at he
    have he' := abs_le.mp he
    have hb1 : S * (1 - 1 / 2 ^ 24) ≤ b := by have := he'.2; rw [div_eq_mul_one_div] at this; nlinarith
    have hb2 : b ≤ S * (1 + 1 / 2 ^ 24) := by have := he'.1; rw [div_eq_mul_one_div] at this; nlinarith
    have hb0 : (0 : ℝ) < b := lt_of_lt_of_le (by norm_num; exact hS0) hb1
    have hbq : b ≠ 0 := by intro h; rw [h] at hb0; simp at hb0
    have hr1 : (1 : ℝ) / 2 ^ 65 ≤ 1 / b := by
      rw [div_le_div_iff₀ (by positivity) hb0]
      norm_num at hb2 hS2 ⊢
      nlinarith
    have hr2 : 1 / (b : ℝ) ≤ 2 ^ 64 := by
      rw [div_le_iff₀ hb0]
      norm_num at hb1 hS1 ⊢
      nlinarith
    obtain ⟨d, hd, hde⟩ := isRoundOf_rel (.inl rfl) (frecip_spec (.inl rfl) hb hbq)
      (by rw [hN, abs_of_pos (by positivity)]; refine le_trans ?_ hr1; norm_num)
      (by rw [hL, abs_of_pos (by positivity)]; refine lt_of_le_of_lt hr2 ?_; norm_num)
    refine ⟨d, hd, ?_⟩
    rw [hm, abs_of_pos (show (0 : ℝ) < 1 / b by positivity)] at hde
    have hde' := abs_le.mp hde
    -- multiply by b and S
    have h1 : (d : ℝ) * b ≤ 1 + 1 / 2 ^ 24 := by
      have := mul_le_mul_of_nonneg_right hde'.1 hb0.le
      field_simp at this ⊢
      linarith
    have h2 : 1 - 1 / 2 ^ 24 ≤ (d : ℝ) * b := by
      have := mul_le_mul_of_nonneg_right hde'.2 hb0.le
      field_simp at this ⊢
      linarith
    have hd0 : (0 : ℝ) < d := by
      by_contra hc
      push Not at hc
      have : (d : ℝ) * b ≤ 0 := mul_nonpos_of_nonpos_of_nonneg hc hb0.le
      norm_num at h2
      linarith
    have h3 : (d : ℝ) * S * (1 - 1 / 2 ^ 24) ≤ d * b := by
      rw [mul_assoc]; exact mul_le_mul_of_nonneg_left hb1 hd0.le
    have h4 : (d : ℝ) * b ≤ d * S * (1 + 1 / 2 ^ 24) := by
      rw [mul_assoc]; exact mul_le_mul_of_nonneg_left hb2 hd0.le
    rw [abs_le]
    norm_num at h1 h2 h3 h4 ⊢
    constructor <;> linarith
  · have h1 : ieee (fofInt 32 1) = .fin 1 := by
      have := fofInt_exact (k := 32) (.inl rfl) (z := 1) (by decide)
      simpa using this
    have hroot := fsqrt_root (.inl rfl) x
    unfold IsRoot at hroot
    rw [hx] at hroot
    simp only [le_refl, if_true] at hroot
    show ieee (fdiv (fofInt 32 1) (fsqrt x)) = _
    rw [hroot.2 trivial, fdiv_zero (.inl rfl) h1 (by norm_num) hx, hs]
    rfl

/-- The ceiling of a number in (0, 1] is one. -/
theorem ceil_one (hn : n = 32 ∨ n = 64) {x : BitVec n} {a : ℚ} (hx : ieee x = .fin a) (h0 : 0 < a)
    (h1 : a ≤ 1) : fround .up x = fofInt n 1 := by
  have h := fround_spec hn .up x
  unfold IsRounded at h
  rw [hx] at h
  obtain ⟨hs, k, hk, hp⟩ := h
  have hk1 : k = 1 := by
    have : k = ⌈a⌉ := hp
    rw [this, Int.ceil_eq_iff]
    constructor <;> push_cast <;> linarith
  have hone : ieee (fofInt n 1) = .fin ((1 : ℤ) : ℚ) :=
    fofInt_exact hn (z := 1) (by simp; exact Nat.one_le_two_pow)
  refine bits_eq_of_ieee hn (by rw [hk]; simp) ?_ (by rw [hk, hk1, hone])
  have h2 : x.msb = false := by
    by_contra hc
    have := (fin_ieee hn hx).2
    unfold fsign at this
    rw [if_pos (by simpa using hc)] at this
    have h3 : (0 : ℚ) ≤ (fnum x : ℚ) / 2 ^ fone n := by positivity
    linarith
  rw [hs, h2]
  rcases hn with rfl | rfl <;> decide +kernel

/-- The reciprocal fourth root of a number of magnitude 1.002 or more is at most one, with
every version of `rsqrt`, so its ceiling is one. -/
theorem rsqrt_ceil {f : BitVec 32 → BitVec 32} (hf : IsRsqrt f) {x : BitVec 32} {a : ℚ}
    (hx : ieee x = .fin a) (ha : 1.002 ≤ |a|) :
    fround .up (f (fsqrt (fabsScalar x))) = 0x3F800000#32 := by
  have hN : fNormal 32 = 1 / 2 ^ 126 := by simp [fNormal]
  have hL : fLimit 32 = 2 ^ 128 - 2 ^ 103 := by simp [fLimit]
  have hm : mantBits 32 + 1 = 24 := rfl
  obtain ⟨-, hy⟩ := fabs_facts (.inl rfl) hx
  generalize |a| = a' at *
  have har : (1.002 : ℝ) ≤ a' := by
    have : ((1.002 : ℚ) : ℝ) ≤ a' := by exact_mod_cast ha
    norm_num at this ⊢
    exact this
  have hlim := fin_lt_limit (.inl rfl) hy
  rw [abs_of_pos (by linarith), hL] at hlim
  set S := Real.sqrt a' with hS
  have hS1 : (1.00099 : ℝ) ≤ S := by
    apply Real.le_sqrt_of_sq_le
    refine le_trans ?_ har
    norm_num
  have hS2 : S ≤ 2 ^ 64 := by
    rw [hS, Real.sqrt_le_left (by positivity)]
    norm_num at hlim ⊢
    linarith
  have hS0 : 0 < S := by linarith
  obtain ⟨b, hb, he⟩ := isRoundOf_rel (.inl rfl) (fsqrt_spec (.inl rfl) hy (by linarith))
    (by rw [hN, abs_of_pos hS0]; refine le_trans ?_ hS1; norm_num)
    (by rw [hL, abs_of_pos hS0]; refine lt_of_le_of_lt hS2 ?_; norm_num)
  rw [hm, ← hS, abs_of_pos hS0] at he
  have he' := abs_le.mp he
  have hb1 : (1.0009 : ℝ) ≤ b := by have := he'.2; norm_num at this ⊢; linarith
  obtain ⟨d, hd, hde⟩ := hf.1 _ b hb (by rw [hN]; refine le_trans ?_ hb1; norm_num)
  set T := Real.sqrt b with hT
  have hT1 : (1.0004 : ℝ) ≤ T := by
    apply Real.le_sqrt_of_sq_le
    refine le_trans ?_ hb1
    norm_num
  have hde' := abs_le.mp hde
  have hd0 : (0 : ℝ) < d := by
    by_contra hc
    push Not at hc
    have : (d : ℝ) * T ≤ 0 := mul_nonpos_of_nonpos_of_nonneg hc (by linarith)
    have := hde'.1
    norm_num at this
    linarith
  have hd1 : (d : ℝ) ≤ 1 := by
    have h1 : (d : ℝ) * 1.0004 ≤ d * T := mul_le_mul_of_nonneg_left hT1 hd0.le
    have := hde'.2
    norm_num at this h1
    linarith
  rw [ceil_one (.inl rfl) hd (by exact_mod_cast hd0) (by exact_mod_cast hd1)]
  decide +kernel

end Faster
