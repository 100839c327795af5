import Verif.Props.FloatCast
import Verif.Props.FloatSum
/-
The float parts of C63 (sums) and C69 (roots and reciprocals) with the arithmetic of
`Verif/Intrin/Ieee.lean`.
-/
namespace Faster
open Res

variable {n w : Nat}

/-! ### C63 -/

/-- The sum of two integers of few digits is exact. -/
theorem fadd_int (hn : n = 32 ∨ n = 64) {x y : BitVec n} {a b : ℤ} (hx : ieee x = .fin a)
    (hy : ieee y = .fin b) (h : (a + b).natAbs ≤ 2 ^ (mantBits n + 1)) :
    ieee (fadd x y) = .fin ((a + b : ℤ) : ℚ) := by
  refine isRoundOf_exact hn (fofInt_exact hn h) ?_
  have := fadd_spec hn hx hy
  push_cast at this ⊢
  exact this

theorem Plan.eval_int (hn : n = 32 ∨ n = 64) (v : Nat → BitVec n) (z : Nat → ℤ) (p : Plan)
    (hz : ∀ i ∈ p.lanes, ieee (v i) = .fin (z i))
    (hb : (p.lanes.map fun i => (z i).natAbs).sum ≤ 2 ^ (mantBits n + 1)) :
    ieee (p.eval fadd (fZero n false) v) = .fin (((p.lanes.map z).sum : ℤ) : ℚ) ∧
      (p.lanes.map z).sum.natAbs ≤ (p.lanes.map fun i => (z i).natAbs).sum := by
  induction p with
  | zero => simpa [Plan.eval, Plan.lanes] using (fzero_facts hn false).2
  | lane i => simpa [Plan.eval, Plan.lanes] using hz i (by simp [Plan.lanes])
  | add l r ihl ihr =>
    simp only [Plan.lanes, List.map_append, List.sum_append] at hb hz ⊢
    obtain ⟨h1, h2⟩ := ihl (fun i hi => hz i (List.mem_append_left _ hi)) (by omega)
    obtain ⟨h3, h4⟩ := ihr (fun i hi => hz i (List.mem_append_right _ hi)) (by omega)
    exact ⟨fadd_int hn h1 h3 (by omega), by omega⟩

/-- **C63**: if the lanes are integers whose magnitudes add up to at most 2^24 (`f32`) or
2^53 (`f64`), every summation routine above returns their exact sum, so all versions
agree on such vectors. -/
theorem C63_integers (hn : n = 32 ∨ n = 64)
    {sum : (BitVec n → BitVec n → BitVec n) → Vector (BitVec n) w → Res (BitVec n)} {p : Plan}
    (hf : Follows sum (fZero n false) p) (hl : p.lanes = List.range w) (v : Vector (BitVec n) w)
    (z : Nat → ℤ) (hz : ∀ i (h : i < w), ieee v[i] = .fin (z i))
    (hb : ((List.range w).map fun i => (z i).natAbs).sum ≤ 2 ^ (if n = 32 then 24 else 53)) :
    ∃ s, sum fadd v = ok s ∧ ieee s = .fin ((((List.range w).map z).sum : ℤ) : ℚ) := by
  refine ⟨_, hf fadd v, ?_⟩
  have hm : (if n = 32 then 24 else 53) = mantBits n + 1 := by
    rcases hn with rfl | rfl <;> rfl
  rw [hm] at hb
  rw [← hl] at hb ⊢
  refine (Plan.eval_int hn _ z p (fun i hi => ?_) hb).1
  rw [hl, List.mem_range] at hi
  simp only [Vector.getElem?_eq_getElem hi, Option.getD_some]
  exact hz i hi

/-- Non-vacuity: 1 + 2 + 3 + 4 in `f32`. -/
example : sumF32x4 fadd #v[0x3F800000#32, 0x40000000#32, 0x40400000#32, 0x40800000#32] =
    ok 0x41200000#32 := by decide +kernel

/-- C63: beyond that the versions differ: 2^24 + 0 + 1 + 1 is 2^24 by the fallback and
2^24 + 2 by SSE3. -/
theorem C63_order_matters :
    sumFallbackF fadd 0#32 #v[0x4B800000#32, 0#32, 0x3F800000#32, 0x3F800000#32] =
      ok 0x4B800000#32 ∧
    sumF32x4 fadd #v[0x4B800000#32, 0#32, 0x3F800000#32, 0x3F800000#32] = ok 0x4B800001#32 := by
  decide +kernel

/-! ### C69 -/

theorem frecip_spec (hn : n = 32 ∨ n = 64) {x : BitVec n} {a : ℚ} (hx : ieee x = .fin a)
    (h0 : a ≠ 0) : IsRoundOf (1 / (a : ℝ)) (frecip x) := by
  have h1 : ieee (fofInt n 1) = .fin 1 := by
    have := fofInt_exact hn (z := 1) (by simp; exact Nat.one_le_two_pow)
    simpa using this
  have := (fdiv_spec hn h1 hx h0).1
  simpa [frecip] using this

/-- Specification of a square root: correctly rounded; none of negative numbers; zeros
keep their sign. -/
def IsRoot (x y : BitVec n) : Prop :=
  match ieee x with
  | .nan => ieee y = .nan
  | .inf neg => ieee y = if neg then .nan else .inf false
  | .fin a => if 0 ≤ a then IsRoundOf (Real.sqrt a) y ∧ (a = 0 → y = x) else ieee y = .nan

theorem fsqrt_root (hn : n = 32 ∨ n = 64) (x : BitVec n) : IsRoot x (fsqrt x) := by
  unfold IsRoot
  split
  · rename_i h
    unfold fsqrt
    rw [if_pos ((fnan_iff hn x).2 h)]
    exact qnan_facts hn
  · rename_i t h
    obtain ⟨h1, rfl⟩ := (inf_iff hn x t).1 h
    have hnan : ¬ fnan x = true := by rw [fnan_iff hn, h]; simp
    have hz : ¬ (fmag x == 0) = true := by
      unfold finf at h1
      have h2 : fmag x = infBits n := by simpa using h1
      have : infBits n ≠ 0 := by rcases hn with rfl | rfl <;> decide
      simp [h2, this]
    unfold fsqrt
    rw [if_neg hnan, if_neg hz]
    split
    · rw [qnan_facts hn]
    · rename_i hm
      rw [h]
      simp [hm]
  · rename_i a h
    split
    · rename_i h0
      refine ⟨fsqrt_spec hn h h0, fun ha => ?_⟩
      have hm : fmag x = 0 := by
        have := (fin_ieee hn h).2
        rw [ha] at this
        have hs : fsign x ≠ 0 := by unfold fsign; split <;> simp
        have hu : (2 : ℚ) ^ fone n ≠ 0 := by positivity
        have h1 : (fnum x : ℚ) = 0 := by
          rcases mul_eq_zero.mp this.symm with h | h
          · exact absurd h hs
          · rcases div_eq_zero_iff.mp h with h | h
            · exact h
            · exact absurd h hu
        have h2 : fnum x = 0 := by exact_mod_cast h1
        by_contra hc
        have := funits_strictMono (mantBits n) (Nat.pos_of_ne_zero hc)
        rw [funits_zero] at this
        unfold fnum at h2
        omega
      unfold fsqrt
      rw [(fnan_of_fin hn h).1, hm]
      simp
    · rename_i h0
      have hs : x.msb = true := by
        have := (fin_ieee hn h).2
        by_contra hc
        apply h0
        rw [this]
        unfold fsign
        rw [if_neg hc]
        positivity
      have hm : ¬ (fmag x == 0) = true := by
        intro hm
        apply h0
        have := (fin_ieee hn h).2
        simp only [beq_iff_eq] at hm
        rw [this, fnum, hm, funits_zero]
        simp
      unfold fsqrt
      rw [(fnan_of_fin hn h).1, if_neg (by simp), if_neg hm, if_pos hs]
      exact qnan_facts hn

/-- **C69**, square roots: every version, with and without the instruction, returns the
correctly rounded root of every lane in its place. -/
theorem C69_sqrt (opt : Bool) (r : UnRow) (hr : r ∈ sqrtRows ++ sqrtRowsUnknown)
    (v : Vector (BitVec (8 * r.size)) r.width) :
    ∃ o, sqrtOf opt r v = ok o ∧ ∀ i (h : i < r.width), IsRoot v[i] o[i] := by
  have hn := (rootRows_facts r (by simp only [List.mem_append] at hr ⊢; tauto)).2.2
  have h : sqrtOf opt r v = ok (v.map fsqrt) := by
    obtain ⟨o, h1, h2⟩ := (C69_fallback fsqrt frecip).1 r hr v
    have : o = v.map fsqrt := by
      apply Vector.ext
      intro i hi
      rw [h2 i hi, Vector.getElem_map]
    rw [this] at h1
    unfold sqrtOf
    split <;> first | rfl | exact h1
  exact ⟨_, h, fun i hi => by rw [Vector.getElem_map]; exact fsqrt_root hn _⟩

/-- **C69**, reciprocals and reciprocal roots without the instruction: correctly rounded
reciprocal of every lane, or of its correctly rounded root. -/
theorem C69_recip :
    (∀ r ∈ recipRows ++ recipRowsUnknown, ∀ v : Vector (BitVec (8 * r.size)) r.width, ∃ o,
      rootFallback fsqrt frecip r v = ok o ∧ ∀ i (h : i < r.width) (a : ℚ),
        ieee v[i] = .fin a → a ≠ 0 → IsRoundOf (1 / (a : ℝ)) o[i]) ∧
    (∀ r ∈ rsqrtRows ++ rsqrtRowsUnknown, ∀ v : Vector (BitVec (8 * r.size)) r.width, ∃ o,
      rootFallback fsqrt frecip r v = ok o ∧ ∀ i (h : i < r.width),
        ∃ s : BitVec (8 * r.size), IsRoot v[i] s ∧ o[i] = frecip s ∧
          ∀ a : ℚ, ieee s = .fin a → a ≠ 0 → IsRoundOf (1 / (a : ℝ)) o[i]) := by
  refine ⟨fun r hr v => ?_, fun r hr v => ?_⟩
  · have hn := (rootRows_facts r (by simp only [List.mem_append] at hr ⊢; tauto)).2.2
    obtain ⟨o, h1, h2⟩ := (C69_fallback fsqrt frecip).2.1 r hr v
    exact ⟨o, h1, fun i hi a ha h0 => by rw [h2 i hi]; exact frecip_spec hn ha h0⟩
  · have hn := (rootRows_facts r (by simp only [List.mem_append] at hr ⊢; tauto)).2.2
    obtain ⟨o, h1, h2⟩ := (C69_fallback fsqrt frecip).2.2 r hr v
    refine ⟨o, h1, fun i hi => ⟨fsqrt v[i], fsqrt_root hn _, h2 i hi, fun a ha h0 => ?_⟩⟩
    rw [h2 i hi]
    exact frecip_spec hn ha h0

/-- Non-vacuity: the roots of 2 and 4, and the reciprocal of 3. -/
example : fsqrt (0x40000000#32) = 0x3FB504F3#32 ∧ fsqrt (0x40800000#32) = 0x40000000#32 ∧
    frecip (0x40400000#32) = 0x3EAAAAAB#32 := by decide +kernel

end Faster
