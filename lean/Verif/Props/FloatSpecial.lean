import Verif.Props.FloatUse
/-
C132: the float operators in every case, including infinities, NaNs and signed zeros.
-/
namespace Faster
open Res

variable {n : Nat}

/-- `r` is `x + y` by IEEE 754: infinities of opposite signs have no sum; an exact zero is `-0` only
if both operands are negative (that is, `-0`). -/
def IsFloatSum (x y r : BitVec n) : Prop :=
  match ieee x, ieee y with
  | .nan, _ | _, .nan => ieee r = .nan
  | .inf s, .inf t => ieee r = if s = t then .inf s else .nan
  | .inf s, .fin _ | .fin _, .inf s => ieee r = .inf s
  | .fin a, .fin b => IsRoundOf (a + b) r ∧ (a + b = 0 → r.msb = (x.msb && y.msb))

/-- `r` is `x - y` by IEEE 754. -/
def IsFloatDiff (x y r : BitVec n) : Prop :=
  match ieee x, ieee y with
  | .nan, _ | _, .nan => ieee r = .nan
  | .inf s, .inf t => ieee r = if s = t then .nan else .inf s
  | .inf s, .fin _ => ieee r = .inf s
  | .fin _, .inf s => ieee r = .inf !s
  | .fin a, .fin b => IsRoundOf (a - b) r ∧ (a - b = 0 → r.msb = (x.msb && !y.msb))

/-- `r` is `x * y` by IEEE 754: zero times infinity is NaN; the sign is negative if the signs
differ. -/
def IsFloatProd (x y r : BitVec n) : Prop :=
  match ieee x, ieee y with
  | .nan, _ | _, .nan => ieee r = .nan
  | .inf s, .inf t => ieee r = .inf (s != t)
  | .inf s, .fin b => ieee r = if b = 0 then .nan else .inf (s != y.msb)
  | .fin a, .inf t => ieee r = if a = 0 then .nan else .inf (x.msb != t)
  | .fin a, .fin b => IsRoundOf (a * b) r ∧ r.msb = (x.msb != y.msb)

/-- `r` is `x / y` by IEEE 754: zero by zero and infinity by infinity are NaN, another number by zero
is infinite, a number by infinity is zero. -/
def IsFloatQuot (x y r : BitVec n) : Prop :=
  match ieee x, ieee y with
  | .nan, _ | _, .nan => ieee r = .nan
  | .inf _, .inf _ => ieee r = .nan
  | .inf s, .fin _ => ieee r = .inf (s != y.msb)
  | .fin _, .inf t => ieee r = .fin 0 ∧ r.msb = (x.msb != t)
  | .fin a, .fin b =>
    if b = 0 then ieee r = (if a = 0 then .nan else .inf (x.msb != y.msb))
    else IsRoundOf (a / b) r ∧ r.msb = (x.msb != y.msb)

/-! ### The classes of numbers -/

theorem fmag_zero_iff (hn : n = 32 ∨ n = 64) {z : BitVec n} {c : ℚ} (hz : ieee z = .fin c) :
    (fmag z == 0) = decide (c = 0) := by
  obtain ⟨-, rfl⟩ := fin_ieee hn hz
  rw [Bool.eq_iff_iff, beq_iff_eq, decide_eq_true_eq]
  constructor
  · intro h; rw [fnum, h, funits_zero]; simp
  · intro h
    by_contra hne
    have h1 : 0 < fnum z := by
      unfold fnum
      have := funits_strictMono (mantBits n) (Nat.pos_of_ne_zero hne)
      rwa [funits_zero] at this
    have h2 : (0 : ℚ) < (fnum z : ℚ) / 2 ^ fone n := by
      have : (0 : ℚ) < fnum z := by exact_mod_cast h1
      positivity
    rcases mul_eq_zero.mp h with h | h
    · unfold fsign at h; split at h <;> simp at h
    · exact h2.ne' h

theorem inf_class (hn : n = 32 ∨ n = 64) {x : BitVec n} {s : Bool} (h : ieee x = .inf s) :
    fnan x = false ∧ finf x = true ∧ x.msb = s ∧ (fmag x == 0) = false := by
  obtain ⟨h1, h2⟩ := (inf_iff hn x s).1 h
  refine ⟨by rw [← Bool.not_eq_true, fnan_iff hn, h]; simp, h1, h2, ?_⟩
  have hpos := (fLimit_units hn).2.2.1
  unfold finf at h1
  rw [beq_iff_eq] at h1
  rw [h1]
  simp
  omega

theorem nan_class (hn : n = 32 ∨ n = 64) {x : BitVec n} (h : ieee x = .nan) : fnan x = true :=
  (fnan_iff hn x).2 h

theorem fneg_inf (hn : n = 32 ∨ n = 64) {x : BitVec n} {s : Bool} (h : ieee x = .inf s) :
    ieee (fneg x) = .inf !s := by
  obtain ⟨h1, h2⟩ := fneg_facts hn x
  obtain ⟨h3, h4⟩ := (inf_iff hn x s).1 h
  refine (inf_iff hn _ _).2 ⟨?_, by rw [h1, h4]⟩
  unfold finf at *
  rw [h2]; exact h3

theorem fneg_nan (hn : n = 32 ∨ n = 64) {x : BitVec n} (h : ieee x = .nan) :
    ieee (fneg x) = .nan := by
  rw [← fnan_iff hn] at *
  unfold fnan at *
  rw [(fneg_facts hn x).2]; exact h

/-! ### The operators -/

/-- **C132**, addition. -/
theorem C132_add (hn : n = 32 ∨ n = 64) (x y : BitVec n) : IsFloatSum x y (fadd x y) := by
  have hq := qnan_facts hn
  unfold IsFloatSum
  cases hx : ieee x with
  | nan => simp [fadd, nan_class hn hx, hq]
  | inf s =>
    obtain ⟨p1, p2, p3, -⟩ := inf_class hn hx
    cases hy : ieee y with
    | nan => simp [fadd, nan_class hn hy, hq]
    | inf t =>
      obtain ⟨q1, q2, q3, -⟩ := inf_class hn hy
      by_cases h : s = t
      · subst h; simp [fadd, p1, p2, p3, q1, q2, q3, hx]
      · simp [fadd, p1, p2, p3, q1, q2, q3, h, hq]
    | fin b =>
      obtain ⟨q1, q2⟩ := fnan_of_fin hn hy
      simp [fadd, p1, p2, q1, q2, hx]
  | fin a =>
    obtain ⟨p1, p2⟩ := fnan_of_fin hn hx
    cases hy : ieee y with
    | nan => simp [fadd, nan_class hn hy, hq]
    | inf t =>
      obtain ⟨q1, q2, q3, -⟩ := inf_class hn hy
      simp [fadd, p1, p2, q1, q2, hy]
    | fin b =>
      obtain ⟨q1, q2⟩ := fnan_of_fin hn hy
      refine ⟨fadd_spec hn hx hy, fun h => ?_⟩
      have h1 : ((fint x + fint y : ℤ) : ℝ) = 0 := by
        have hu : (0 : ℝ) < 2 ^ fone n := by positivity
        have h2 : ((a + b : ℚ) : ℝ) = 0 := by exact_mod_cast h
        push_cast at h2 ⊢
        rw [fin_fint hn hx, fin_fint hn hy, ← add_div, div_eq_zero_iff] at h2
        exact h2.resolve_right hu.ne'
      have h2 : fint x + fint y = 0 := by exact_mod_cast h1
      simp only [fadd, p1, p2, q1, q2, h2, Bool.or_self, Bool.false_eq_true, if_false, if_true]
      exact (fzero_facts hn _).1

/-- **C132**, subtraction. -/
theorem C132_sub (hn : n = 32 ∨ n = 64) (x y : BitVec n) : IsFloatDiff x y (fsub x y) := by
  have h := C132_add hn x (fneg y)
  unfold IsFloatSum at h
  unfold IsFloatDiff fsub
  cases hy : ieee y with
  | nan =>
    rw [fneg_nan hn hy] at h
    cases hx : ieee x <;> rw [hx] at h <;> exact h
  | inf t =>
    rw [fneg_inf hn hy] at h
    cases hx : ieee x with
    | nan => rw [hx] at h; exact h
    | fin a => rw [hx] at h; exact h
    | inf s =>
      rw [hx] at h
      rw [h]
      cases s <;> cases t <;> rfl
  | fin b =>
    rw [fneg_spec hn hy] at h
    cases hx : ieee x with
    | nan => rw [hx] at h; exact h
    | inf s => rw [hx] at h; exact h
    | fin a =>
      rw [hx] at h
      refine ⟨fsub_spec hn hx hy, fun h0 => ?_⟩
      rw [h.2 (by rw [← sub_eq_add_neg]; exact h0), (fneg_facts hn y).1]

/-- **C132**, multiplication. -/
theorem C132_mul (hn : n = 32 ∨ n = 64) (x y : BitVec n) : IsFloatProd x y (fmul x y) := by
  have hq := qnan_facts hn
  have hi := fun s => (finf_facts hn s).2.2
  unfold IsFloatProd
  cases hx : ieee x with
  | nan => simp [fmul, nan_class hn hx, hq]
  | inf s =>
    obtain ⟨p1, p2, p3, p4⟩ := inf_class hn hx
    cases hy : ieee y with
    | nan => simp [fmul, nan_class hn hy, hq]
    | inf t =>
      obtain ⟨q1, q2, q3, q4⟩ := inf_class hn hy
      simp only [fmul, p1, p2, p3, p4, q1, q2, q3, q4]
      exact hi _
    | fin b =>
      obtain ⟨q1, q2⟩ := fnan_of_fin hn hy
      by_cases h : b = 0
      · simp [fmul, p1, p2, p4, q1, q2, fmag_zero_iff hn hy, h, hq]
      · simp only [fmul, p1, p2, p3, p4, q1, q2, fmag_zero_iff hn hy, h]
        exact hi _
  | fin a =>
    obtain ⟨p1, p2⟩ := fnan_of_fin hn hx
    cases hy : ieee y with
    | nan => simp [fmul, nan_class hn hy, hq]
    | inf t =>
      obtain ⟨q1, q2, q3, q4⟩ := inf_class hn hy
      by_cases h : a = 0
      · simp [fmul, p1, p2, q1, q2, q4, fmag_zero_iff hn hx, h, hq]
      · simp only [fmul, p1, p2, q1, q2, q3, q4, fmag_zero_iff hn hx, h]
        exact hi _
    | fin b => exact fmul_spec hn hx hy

/-- **C132**, division. -/
theorem C132_div (hn : n = 32 ∨ n = 64) (x y : BitVec n) : IsFloatQuot x y (fdiv x y) := by
  have hq := qnan_facts hn
  have hi := fun s => (finf_facts hn s).2.2
  unfold IsFloatQuot
  cases hx : ieee x with
  | nan => simp [fdiv, nan_class hn hx, hq]
  | inf s =>
    obtain ⟨p1, p2, p3, p4⟩ := inf_class hn hx
    cases hy : ieee y with
    | nan => simp [fdiv, nan_class hn hy, hq]
    | inf t =>
      obtain ⟨q1, q2, q3, q4⟩ := inf_class hn hy
      simp [fdiv, p1, p2, q1, q2, hq]
    | fin b =>
      obtain ⟨q1, q2⟩ := fnan_of_fin hn hy
      simp only [fdiv, p1, p2, p3, p4, q1, q2]
      exact hi _
  | fin a =>
    obtain ⟨p1, p2⟩ := fnan_of_fin hn hx
    cases hy : ieee y with
    | nan => simp [fdiv, nan_class hn hy, hq]
    | inf t =>
      obtain ⟨q1, q2, q3, q4⟩ := inf_class hn hy
      have : fdiv x y = fZero n (x.msb != t) := by
        simp [fdiv, p1, p2, q1, q2, q3, q4]
      rw [this]
      exact ⟨(fzero_facts hn _).2, (fzero_facts hn _).1⟩
    | fin b =>
      obtain ⟨q1, q2⟩ := fnan_of_fin hn hy
      by_cases h : b = 0
      · simp only [h, if_true]
        by_cases ha : a = 0
        · simp [fdiv, p1, p2, q1, q2, fmag_zero_iff hn hx, fmag_zero_iff hn hy, h, ha, hq]
        · simp only [fdiv, p1, p2, q1, q2, fmag_zero_iff hn hx, fmag_zero_iff hn hy, h, ha]
          exact hi _
      · simp only [h, if_false]
        exact fdiv_spec hn hx hy h

/-! ### The specifications determine the results -/

/-- Equal floats; any two NaNs count as equal. -/
def SameFloat (r s : BitVec n) : Prop := ieee r = ieee s ∧ (ieee r ≠ .nan → r = s)

theorem same_nan {r s : BitVec n} (hr : ieee r = .nan) (hs : ieee s = .nan) : SameFloat r s :=
  ⟨hr.trans hs.symm, fun h => absurd hr h⟩

theorem same_inf (hn : n = 32 ∨ n = 64) {r s : BitVec n} {t : Bool} (hr : ieee r = .inf t)
    (hs : ieee s = .inf t) : SameFloat r s := by
  refine ⟨hr.trans hs.symm, fun h => bits_eq_of_ieee hn h ?_ (hr.trans hs.symm)⟩
  rw [((inf_iff hn r t).1 hr).2, ((inf_iff hn s t).1 hs).2]

theorem same_round (hn : n = 32 ∨ n = 64) {v : ℝ} {r s : BitVec n} (hr : IsRoundOf v r)
    (hs : IsRoundOf v s) (h0 : v = 0 → r.msb = s.msb) : SameFloat r s := by
  obtain ⟨h1, h2⟩ := isRoundOf_unique hn hr hs
  refine ⟨h1, fun h => ?_⟩
  by_cases hv : v = 0
  · exact bits_eq_of_ieee hn h (h0 hv) h1
  · exact h2 hv

/-- **C132**: the four specifications leave only the payloads of NaNs open. -/
theorem C132_unique (hn : n = 32 ∨ n = 64) (x y r s : BitVec n) :
    (IsFloatSum x y r → IsFloatSum x y s → SameFloat r s) ∧
    (IsFloatDiff x y r → IsFloatDiff x y s → SameFloat r s) ∧
    (IsFloatProd x y r → IsFloatProd x y s → SameFloat r s) ∧
    (IsFloatQuot x y r → IsFloatQuot x y s → SameFloat r s) := by
  have two : ∀ {r s : BitVec n} {P : Prop} [Decidable P] {t : Bool},
      ieee r = (if P then .nan else .inf t) → ieee s = (if P then .nan else .inf t) →
      SameFloat r s := by
    intro r s P _ t h1 h2
    split at h1
    · rw [if_pos (by assumption)] at h2; exact same_nan h1 h2
    · rw [if_neg (by assumption)] at h2; exact same_inf hn h1 h2
  have two' : ∀ {r s : BitVec n} {P : Prop} [Decidable P] {t : Bool},
      ieee r = (if P then .inf t else .nan) → ieee s = (if P then .inf t else .nan) →
      SameFloat r s := by
    intro r s P _ t h1 h2
    split at h1
    · rw [if_pos (by assumption)] at h2; exact same_inf hn h1 h2
    · rw [if_neg (by assumption)] at h2; exact same_nan h1 h2
  unfold IsFloatSum IsFloatDiff IsFloatProd IsFloatQuot
  cases hx : ieee x with
  | nan => simp only []; exact ⟨same_nan, same_nan, same_nan, same_nan⟩
  | inf a =>
    cases hy : ieee y with
    | nan => exact ⟨same_nan, same_nan, same_nan, same_nan⟩
    | inf b => exact ⟨two', two, same_inf hn, same_nan⟩
    | fin b => exact ⟨same_inf hn, same_inf hn, two, same_inf hn⟩
  | fin a =>
    cases hy : ieee y with
    | nan => exact ⟨same_nan, same_nan, same_nan, same_nan⟩
    | inf b =>
      refine ⟨same_inf hn, same_inf hn, two, fun h1 h2 => ?_⟩
      exact ⟨h1.1.trans h2.1.symm, fun h =>
        bits_eq_of_ieee hn h (h1.2.trans h2.2.symm) (h1.1.trans h2.1.symm)⟩
    | fin b =>
      refine ⟨fun h1 h2 => ?_, fun h1 h2 => ?_, fun h1 h2 => ?_, fun h1 h2 => ?_⟩
      · exact same_round hn h1.1 h2.1 fun h => by
          have h' : a + b = 0 := by exact_mod_cast h
          rw [h1.2 h', h2.2 h']
      · exact same_round hn h1.1 h2.1 fun h => by
          have h' : a - b = 0 := by exact_mod_cast h
          rw [h1.2 h', h2.2 h']
      · exact same_round hn h1.1 h2.1 fun _ => h1.2.trans h2.2.symm
      · simp only [] at h1 h2
        split at h1
        · rw [if_pos (by assumption)] at h2; exact two h1 h2
        · rw [if_neg (by assumption)] at h2
          exact same_round hn h1.1 h2.1 fun _ => h1.2.trans h2.2.symm

/-- **C132**, when a result is NaN although no operand is. -/
theorem C132_invalid (hn : n = 32 ∨ n = 64) (x y : BitVec n) (hx : ieee x ≠ .nan)
    (hy : ieee y ≠ .nan) :
    (ieee (fadd x y) = .nan ↔ ∃ s, ieee x = .inf s ∧ ieee y = .inf !s) ∧
    (ieee (fsub x y) = .nan ↔ ∃ s, ieee x = .inf s ∧ ieee y = .inf s) ∧
    (ieee (fmul x y) = .nan ↔ (ieee x = .fin 0 ∧ ∃ s, ieee y = .inf s) ∨
      (∃ s, ieee x = .inf s) ∧ ieee y = .fin 0) ∧
    (ieee (fdiv x y) = .nan ↔ (ieee x = .fin 0 ∧ ieee y = .fin 0) ∨
      (∃ s, ieee x = .inf s) ∧ ∃ s, ieee y = .inf s) := by
  have h1 := C132_add hn x y
  have h2 := C132_sub hn x y
  have h3 := C132_mul hn x y
  have h4 := C132_div hn x y
  have hr : ∀ {v : ℝ} {r : BitVec n}, IsRoundOf v r → ieee r ≠ .nan := by
    intro v r h e
    have := h.2
    rw [e] at this
    exact this
  unfold IsFloatSum at h1
  unfold IsFloatDiff at h2
  unfold IsFloatProd at h3
  unfold IsFloatQuot at h4
  cases hX : ieee x with
  | nan => exact absurd hX hx
  | inf a =>
    cases hY : ieee y with
    | nan => exact absurd hY hy
    | inf b =>
      rw [hX, hY] at h1 h2 h3 h4
      simp only [] at h1 h2 h3 h4
      rw [h1, h2, h3, h4]
      cases a <;> cases b <;> simp
    | fin b =>
      rw [hX, hY] at h1 h2 h3 h4
      simp only [] at h1 h2 h3 h4
      rw [h1, h2, h3, h4]
      by_cases hb : b = 0 <;> simp [hb]
  | fin a =>
    cases hY : ieee y with
    | nan => exact absurd hY hy
    | inf b =>
      rw [hX, hY] at h1 h2 h3 h4
      simp only [] at h1 h2 h3 h4
      rw [h1, h2, h3, h4.1]
      by_cases hb : a = 0 <;> simp [hb]
    | fin b =>
      rw [hX, hY] at h1 h2 h3 h4
      simp only [] at h1 h2 h3 h4
      have e1 := hr h1.1
      have e2 := hr h2.1
      have e3 := hr h3.1
      by_cases hb : b = 0
      · rw [if_pos hb] at h4
        rw [h4]
        by_cases ha : a = 0 <;> simp [e1, e2, e3, ha, hb]
      · rw [if_neg hb] at h4
        have e4 := hr h4.1
        simp [e1, e2, e3, e4, hb]

/-- Non-vacuity: infinities, zeros and an overflow of `f32`. -/
example : fadd 0x7F800000#32 0xFF800000 = 0x7FC00000 ∧ fadd 0x80000000#32 0x80000000 = 0x80000000 ∧
    fadd 0x3F800000#32 0xBF800000 = 0 ∧ fsub 0x80000000#32 0 = 0x80000000 ∧
    fmul 0x80000000#32 0x7F800000 = 0x7FC00000 ∧ fmul 0x80000000#32 0x3F800000 = 0x80000000 ∧
    fmul 0x7F7FFFFF#32 0xC0000000 = 0xFF800000 ∧ fdiv 0xBF800000#32 0 = 0xFF800000 ∧
    fdiv 0#32 0x80000000 = 0x7FC00000 ∧ fdiv 0x3F800000#32 0xFF800000 = 0x80000000 := by
  decide +kernel

end Faster
