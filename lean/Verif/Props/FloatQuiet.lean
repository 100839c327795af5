import Verif.Props.FloatSpecial
/-
C132: the NaNs that the float operators return are quiet.
-/
namespace Faster
open Res

variable {n : Nat}

/-- The first bit of the fraction is set, which tells quiet NaNs from signalling ones (IEEE 754-2008,
6.2.1). -/
def QuietBit (x : BitVec n) : Prop := x.getLsbD (if n = 32 then 22 else 51) = true

theorem qnan_quiet (hn : n = 32 ∨ n = 64) : QuietBit (qnan n) := by
  rcases hn with rfl | rfl <;> unfold QuietBit <;> decide

theorem fpack_not_nan (hn : n = 32 ∨ n = 64) (neg : Bool) (p d : Nat) :
    ieee (fpack n neg p d) ≠ .nan := by
  obtain ⟨-, -, -, hhalf, -⟩ := fLimit_units hn
  rw [Ne, ← fnan_iff hn]
  unfold fnan fpack
  rw [(ofNat_sign_mag (n := n) (by omega) neg
    (Nat.lt_of_le_of_lt (Nat.min_le_right _ _) hhalf)).2]
  simp

theorem fadd_quiet (hn : n = 32 ∨ n = 64) (x y : BitVec n) (h : ieee (fadd x y) = .nan) :
    QuietBit (fadd x y) := by
  unfold fadd at h ⊢
  by_cases h1 : (fnan x || fnan y) = true
  · rw [if_pos h1]; exact qnan_quiet hn
  rw [if_neg h1] at h ⊢
  simp only [Bool.or_eq_true, not_or, fnan_iff hn] at h1
  split at h <;> rename_i h2
  · rw [if_pos h2]
    split at h <;> rename_i h3
    · rw [if_pos h3]; exact qnan_quiet hn
    · exact absurd h h1.1
  · split at h
    · exact absurd h h1.2
    · split at h
      · rw [(fzero_facts hn _).2] at h; simp at h
      · exact absurd h (fpack_not_nan hn _ _ _)

/-- **C132**: if an operator returns NaN it is a quiet one, also if the operands are signalling. -/
theorem C132_quiet (hn : n = 32 ∨ n = 64) (x y : BitVec n) :
    (ieee (fadd x y) = .nan → QuietBit (fadd x y)) ∧
    (ieee (fsub x y) = .nan → QuietBit (fsub x y)) ∧
    (ieee (fmul x y) = .nan → QuietBit (fmul x y)) ∧
    (ieee (fdiv x y) = .nan → QuietBit (fdiv x y)) := by
  refine ⟨fadd_quiet hn x y, fadd_quiet hn x (fneg y), fun h => ?_, fun h => ?_⟩
  · unfold fmul at h ⊢
    split at h <;> rename_i h1
    · rw [if_pos h1]; exact qnan_quiet hn
    rw [if_neg h1]
    split at h <;> rename_i h2
    · rw [if_pos h2]
      split at h <;> rename_i h3
      · rw [if_pos h3]; exact qnan_quiet hn
      · rw [(finf_facts hn _).2.2] at h; simp at h
    · exact absurd h (fpack_not_nan hn _ _ _)
  · unfold fdiv at h ⊢
    split at h <;> rename_i h1
    · rw [if_pos h1]; exact qnan_quiet hn
    split at h
    · rw [(finf_facts hn _).2.2] at h; simp at h
    split at h
    · rw [(fzero_facts hn _).2] at h; simp at h
    · exact absurd h (fpack_not_nan hn _ _ _)

/-- **C132**: likewise roots and casts between the formats. -/
theorem C132_quiet_casts {k : Nat} (hn : n = 32 ∨ n = 64) (hk : k = 32 ∨ k = 64) (x : BitVec n) :
    (ieee (fsqrt x) = .nan → QuietBit (fsqrt x)) ∧
    (ieee (fconv k x) = .nan → QuietBit (fconv k x)) := by
  refine ⟨fun h => ?_, fun h => ?_⟩
  · unfold fsqrt at h ⊢
    by_cases h1 : fnan x = true
    · rw [if_pos h1]; exact qnan_quiet hn
    rw [if_neg h1] at h ⊢
    rw [fnan_iff hn] at h1
    split at h <;> rename_i h2
    · exact absurd h h1
    rw [if_neg h2]
    split at h <;> rename_i h3
    · rw [if_pos h3]; exact qnan_quiet hn
    split at h
    · exact absurd h h1
    · exact absurd h (fpack_not_nan hn _ _ _)
  · unfold fconv at h ⊢
    by_cases h1 : fnan x = true
    · rw [if_pos h1]; exact qnan_quiet hk
    rw [if_neg h1] at h
    split at h
    · rw [(finf_facts hk _).2.2] at h; simp at h
    · exact absurd h (fpack_not_nan hk _ _ _)

/-- A signalling operand, and the quiet result. -/
example : ¬ QuietBit 0x7F800001#32 ∧ fnan 0x7F800001#32 ∧ fnan (fadd 0x7F800001#32 0x3F800000#32) ∧
    QuietBit (fadd 0x7F800001#32 0x3F800000#32) := by
  unfold QuietBit; decide +kernel

end Faster
