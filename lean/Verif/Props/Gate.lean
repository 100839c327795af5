import Verif.Intrin.ArithTables
/-
Feature gates of the x86 instructions (C64).
-/
namespace Faster

/-- Instruction set extensions; `other` is never enabled. -/
inductive Ext | sse | sse2 | sse3 | ssse3 | sse41 | avx | avx2 | avx512 | other
  deriving DecidableEq, Repr

/-- The extension a `#[cfg(target_feature = …)]` asks for. -/
def Gate.ext : Gate → Ext
  | .sse => .sse | .sse2 => .sse2 | .sse3 => .sse3 | .ssse3 => .ssse3 | .sse41 => .sse41
  | .avx => .avx | .avx2 => .avx2 | .never => .other

/-- The extension that introduced an instruction (Intel intrinsics guide). -/
def Instr.needs : Instr → Ext
  | .mm_and_ps | .mm_cmpeq_ps | .mm_max_ps | .mm_min_ps | .mm_rcp_ps | .mm_rsqrt_ps | .mm_shuffle_ps | .mm_sqrt_ps => .sse
  | .mm_adds_epi16 | .mm_adds_epi8 | .mm_adds_epu16 | .mm_adds_epu8 | .mm_and_pd | .mm_cmpeq_epi16 | .mm_cmpeq_epi32 | .mm_cmpeq_epi8 | .mm_cmpeq_pd | .mm_cvtepi32_pd | .mm_cvtps_pd | .mm_max_epi16 | .mm_max_epu8 | .mm_max_pd | .mm_min_epi16 | .mm_min_epu8 | .mm_min_pd | .mm_packs_epi16 | .mm_packs_epi32 | .mm_packus_epi16 | .mm_sad_epu8 | .mm_shuffle_epi32 | .mm_sqrt_pd | .mm_subs_epi16 | .mm_subs_epi8 | .mm_subs_epu16 | .mm_subs_epu8 | .mm_unpackhi_epi32 | .mm_unpackhi_epi64 | .mm_unpacklo_epi32 | .mm_unpacklo_epi64 => .sse2
  | .mm_hadd_pd | .mm_hadd_ps | .mm_hsub_pd | .mm_hsub_ps => .sse3
  | .mm_abs_epi16 | .mm_abs_epi32 | .mm_abs_epi8 | .mm_hadd_epi16 | .mm_hadd_epi32 | .mm_hadds_epi16 | .mm_hsub_epi16 | .mm_hsub_epi32 | .mm_hsubs_epi16 | .mm_shuffle_epi8 => .ssse3
  | .mm_blendv_epi8 | .mm_ceil_pd | .mm_ceil_ps | .mm_cmpeq_epi64 | .mm_cvtepi16_epi32 | .mm_cvtepi32_epi64 | .mm_cvtepi8_epi16 | .mm_cvtepu16_epi32 | .mm_cvtepu32_epi64 | .mm_cvtepu8_epi16 | .mm_floor_pd | .mm_floor_ps | .mm_max_epi32 | .mm_max_epi8 | .mm_max_epu16 | .mm_max_epu32 | .mm_min_epi32 | .mm_min_epi8 | .mm_min_epu16 | .mm_min_epu32 | .mm_packus_epi32 | .mm_round_pd | .mm_round_ps => .sse41
  | .mm256_and_pd | .mm256_and_ps | .mm256_castsi256_si128 | .mm256_ceil_pd | .mm256_ceil_ps | .mm256_cmp_pd | .mm256_cmp_ps | .mm256_cvtepi32_pd | .mm256_cvtps_pd | .mm256_floor_pd | .mm256_floor_ps | .mm256_hadd_pd | .mm256_hadd_ps | .mm256_hsub_pd | .mm256_hsub_ps | .mm256_max_pd | .mm256_max_ps | .mm256_min_pd | .mm256_min_ps | .mm256_rcp_ps | .mm256_round_pd | .mm256_round_ps | .mm256_rsqrt_ps | .mm256_sqrt_pd | .mm256_sqrt_ps => .avx
  | .mm256_abs_epi16 | .mm256_abs_epi32 | .mm256_abs_epi8 | .mm256_adds_epi16 | .mm256_adds_epi8 | .mm256_adds_epu16 | .mm256_adds_epu8 | .mm256_blendv_epi8 | .mm256_cmpeq_epi16 | .mm256_cmpeq_epi32 | .mm256_cmpeq_epi64 | .mm256_cmpeq_epi8 | .mm256_cvtepi16_epi32 | .mm256_cvtepi32_epi64 | .mm256_cvtepi8_epi16 | .mm256_cvtepu16_epi32 | .mm256_cvtepu32_epi64 | .mm256_cvtepu8_epi16 | .mm256_hadd_epi16 | .mm256_hadd_epi32 | .mm256_hadds_epi16 | .mm256_hsub_epi16 | .mm256_hsub_epi32 | .mm256_hsubs_epi16 | .mm256_max_epi16 | .mm256_max_epi32 | .mm256_max_epi8 | .mm256_max_epu16 | .mm256_max_epu32 | .mm256_max_epu8 | .mm256_min_epi16 | .mm256_min_epi32 | .mm256_min_epi8 | .mm256_min_epu16 | .mm256_min_epu32 | .mm256_min_epu8 | .mm256_packs_epi16 | .mm256_packs_epi32 | .mm256_packus_epi16 | .mm256_packus_epi32 | .mm256_permute4x64_epi64 | .mm256_sad_epu8 | .mm256_shuffle_epi8 | .mm256_subs_epi16 | .mm256_subs_epi8 | .mm256_subs_epu16 | .mm256_subs_epu8 | .mm256_unpackhi_epi32 | .mm256_unpackhi_epi64 | .mm256_unpacklo_epi32 | .mm256_unpacklo_epi64 => .avx2
  | .mm512_mask_mov_epi8 | .mm512_permutexvar_epi8 => .avx512
  | .undefined => .other

/-- Each of these extensions includes the ones before it. -/
def Ext.level : Ext → Nat
  | .sse => 0 | .sse2 => 1 | .sse3 => 2 | .ssse3 => 3 | .sse41 => 4 | .avx => 5 | .avx2 => 6
  | .avx512 => 7 | .other => 8

/-- A set of enabled target features: with an extension all earlier ones are enabled. -/
structure Features where
  on : Ext → Bool
  closed : ∀ a b, a.level ≤ b.level → on b = true → on a = true
  other : on .other = false

/-- The features of a machine supporting everything up to level `l ≤ 7`. -/
def Features.upTo (l : Nat) (h : l ≤ 7) : Features where
  on e := e.level ≤ l
  closed a b hab hb := by simp at hb ⊢; omega
  other := decide_eq_false (by show ¬ 8 ≤ l; omega)

/-- Using an instruction in code with this gate is safe: whenever the code is compiled,
the instruction is available. -/
def GateRow.Safe (r : GateRow) : Prop :=
  ∀ F : Features, F.on r.gate.ext = true → F.on r.mm.needs = true

theorem safe_iff (r : GateRow) : r.Safe ↔ r.gate.ext = .other ∨ r.mm.needs.level ≤ r.gate.ext.level := by
  constructor
  · intro h
    by_cases hg : r.gate.ext = .other
    · exact Or.inl hg
    · have hl : r.gate.ext.level ≤ 7 := by
        revert hg
        cases r.gate.ext <;> simp [Ext.level]
      have := h (Features.upTo _ hl) (by simp [Features.upTo])
      exact Or.inr (by simpa [Features.upTo] using this)
  · rintro (h | h) F hF
    · rw [h, F.other] at hF
      cases hF
    · exact F.closed _ _ h hF

/-- The uses that are not safe. -/
def unsafeUses : List (String × Nat) :=
  [("arch/x86/intrin/cmp.rs", 104), ("arch/x86/intrin/cmp.rs", 105),
   ("arch/x86/intrin/cmp.rs", 111), ("arch/x86/intrin/cmp.rs", 112),
   ("arch/x86/intrin/round.rs", 44), ("arch/x86/intrin/round.rs", 45),
   ("arch/x86/intrin/round.rs", 46), ("arch/x86/intrin/round.rs", 47)]

theorem gateRows_levels : ∀ r ∈ gateRows,
    ((r.gate.ext = .other ∨ r.mm.needs.level ≤ r.gate.ext.level) ↔ (r.file, r.line) ∉ unsafeUses) := by
  decide +kernel

/-- C64, exactly: a use of an instruction under src/arch/x86 can run on a machine
without the instruction if and only if it is one of the eight listed: AVX2
`_mm256_min_epu32`, … in code for AVX, and AVX `_mm256_round_pd`, … in code for SSE4.1. -/
theorem C64_partial (r : GateRow) (h : r ∈ gateRows) :
    r.Safe ↔ (r.file, r.line) ∉ unsafeUses := by
  rw [safe_iff]
  exact gateRows_levels r h

/-- C64 is false: with AVX but not AVX2, `u32x8::min` uses an AVX2 instruction; with
SSE4.1 but not AVX, `f64x4::round` uses an AVX instruction. -/
theorem C64_false :
    (∃ r ∈ gateRows, r.mm = .mm256_min_epu32 ∧ (Features.upTo 5 (by omega)).on r.gate.ext = true ∧
      (Features.upTo 5 (by omega)).on r.mm.needs = false) ∧
    (∃ r ∈ gateRows, r.mm = .mm256_round_pd ∧ (Features.upTo 4 (by omega)).on r.gate.ext = true ∧
      (Features.upTo 4 (by omega)).on r.mm.needs = false) := by
  decide +kernel

/-- C64 holds on machines with AVX2 (there all gates below AVX-512 are satisfied). -/
theorem C64_avx2 (F : Features) (h : F.on .avx2 = true) (r : GateRow) (hr : r ∈ gateRows)
    (hg : F.on r.gate.ext = true) : F.on r.mm.needs = true := by
  by_cases hu : (r.file, r.line) ∈ unsafeUses
  · have : ∀ r ∈ gateRows, (r.file, r.line) ∈ unsafeUses → r.mm.needs.level ≤ 6 := by decide +kernel
    exact F.closed _ .avx2 (this r hr hu) h
  · exact (C64_partial r hr).mpr hu F hg

example : gateRows.length = 398 ∧ (gateRows.filter fun r => (r.file, r.line) ∈ unsafeUses).length = 8 := by
  decide +kernel

end Faster
