import Verif.Witness.Common

/-!
# Concrete states meeting the hypotheses: floats and whole programs

The theorems about the benchmarks and about floats, applied to the rows of the
tables and to small lists of floats.
-/

namespace Faster
open Res

set_option maxRecDepth 4000

/-! ### Operations of the tables -/

theorem exF32Rows : F32Rows 4 absRows[0] sqrtRows[2] roundRows[1] roundRows[2] :=
  ⟨by simp, by simp, by simp, by simp, by decide, by decide, by decide, by decide⟩

/-- The operations of `f32x4`. -/
abbrev exF32 : F32Ops 4 := f32Of exF32Rows true false true false fun v => ok (v.map rsqrtExact)

theorem exF32_lanewise : exF32.Lanewise rsqrtExact :=
  f32Of_lanewise exF32Rows true false true false fun _ => rfl

theorem exLatency : (latencyOf 2 upcastRows[8] sqrtRows[3] downcastRows[3] true false
    (by decide)).Lanewise :=
  latencyOf_lanewise _ _ _ _ _ _ (by simp) (by simp) (by simp) (by decide) (by decide)

theorem exI8x16 : I8Correct (w := 16) ⟨cmpOf release64 true cmpRows[3], cmpOf release64 false cmpRows[2],
    absOf true absRows[4]⟩ :=
  i8Correct _ _ _ _ _ _ _ ⟨by simp, by decide⟩ ⟨by simp, by decide⟩ ⟨by simp, by decide⟩

theorem exI8x32 : I8Correct (w := 32) ⟨cmpOf release64 true cmpRows[19], cmpOf release64 false cmpRows[18],
    absOf true absRows[7]⟩ :=
  i8Correct _ _ _ _ _ _ _ ⟨by simp, by decide⟩ ⟨by simp, by decide⟩ ⟨by simp, by decide⟩

theorem exUp : UpCorrect false (upOf (fun _ => 0) upcastRows[6]) :=
  upCorrect upcastRows[6] (by simp) (by decide) (by decide) (by decide) _

theorem exUpSigned : UpCorrect true (upOf (fun _ => 0) upcastRows[7]) :=
  upCorrect upcastRows[7] (by simp) (by decide) (by decide) (by decide) _

theorem exZipRows : ZipSimdRows 2 upcastRows[10] absRows[10] downcastRows[2] :=
  ⟨by simp, by simp, by simp, by decide, by decide, by decide⟩

/-! ### Floats -/

/-- The floats 2, 3, 4 and 5. -/
abbrev exFloats : List (BitVec 32) := [fofInt 32 2, fofInt 32 3, fofInt 32 4, fofInt 32 5]

theorem exInt (z : ℤ) (h : z.natAbs ≤ 2 ^ 24) : ieee (fofInt 32 z) = .fin z := fofInt_exact (.inl rfl) h

theorem exFloats_ints : ∀ x ∈ exFloats, ∃ z : ℤ, 2 ≤ z ∧ z ≤ 5 ∧ ieee x = .fin z := by
  intro x hx
  simp only [List.mem_cons, List.not_mem_nil, or_false] at hx
  rcases hx with rfl | rfl | rfl | rfl
  exacts [⟨2, by omega, by omega, exInt _ (by decide)⟩, ⟨3, by omega, by omega, exInt _ (by decide)⟩,
    ⟨4, by omega, by omega, exInt _ (by decide)⟩, ⟨5, by omega, by omega, exInt _ (by decide)⟩]

theorem exFloats_large : ∀ x ∈ exFloats, ∃ a : ℚ, ieee x = .fin a ∧ 1.002 ≤ |a| := by
  intro x hx
  obtain ⟨z, h, -, e⟩ := exFloats_ints x hx
  have h' : (2 : ℚ) ≤ z := by exact_mod_cast h
  refine ⟨_, e, ?_⟩
  rw [abs_of_nonneg (by linarith)]
  linarith

theorem exFloats_nonzero : ∀ x ∈ exFloats, ∃ a : ℚ, ieee x = .fin a ∧ a ≠ 0 := by
  intro x hx
  obtain ⟨z, h, -, e⟩ := exFloats_ints x hx
  exact ⟨_, e, by exact_mod_cast (by omega : z ≠ 0)⟩

theorem exFloats_finite : ∀ x ∈ exFloats, (ieee x).Finite := by
  intro x hx
  obtain ⟨z, -, -, e⟩ := exFloats_ints x hx
  rw [e]
  trivial

theorem exFollows : Follows (n := 32) (w := 4) (fun f v => sumFallbackF f (fZero 32 false) v) (fZero 32 false)
    (seqPlan 4) := (C63_fallback _).1

theorem exPairs : ∀ t ∈ exFloats.zip exFloats, ∃ a b : ℤ, (2 ≤ a ∧ a ≤ 5) ∧ (2 ≤ b ∧ b ≤ 5) ∧
    ieee t.1 = .fin a ∧ ieee t.2 = .fin b := by
  intro t ht
  obtain ⟨a, h1, h2, e⟩ := exFloats_ints t.1 (List.of_mem_zip ht).1
  obtain ⟨b, h3, h4, e'⟩ := exFloats_ints t.2 (List.of_mem_zip ht).2
  exact ⟨a, b, ⟨h1, h2⟩, ⟨h3, h4⟩, e, e'⟩

theorem exPairs_product : ∀ t ∈ exFloats.zip exFloats,
    |FVal.real (ieee t.1) * FVal.real (ieee t.2)| < fLimit 32 := by
  intro t ht
  obtain ⟨a, b, ⟨h1, h2⟩, ⟨h3, h4⟩, e, e'⟩ := exPairs t ht
  have hab : |a * b| ≤ 25 := by rw [abs_of_nonneg (by nlinarith)]; nlinarith
  have : |FVal.real (ieee t.1) * FVal.real (ieee t.2)| = ((|a * b| : ℤ) : ℝ) := by
    simp [e, e', FVal.real]
  rw [this]
  refine lt_of_lt_of_le (b := (2 : ℝ) ^ 127) ?_ (fLimit_large (.inl rfl))
  refine lt_of_le_of_lt (b := (25 : ℝ)) (by exact_mod_cast hab) (by norm_num)

theorem exPairs_square : ∀ t ∈ exFloats.zip exFloats,
    FVal.Finite (ieee (fmul (fsub t.1 t.2) (fsub t.1 t.2))) := by
  intro t ht
  obtain ⟨a, b, ⟨h1, h2⟩, ⟨h3, h4⟩, e, e'⟩ := exPairs t ht
  have hd : (a - b).natAbs ≤ 3 := by omega
  have hs := fsub_int (.inl rfl) e e' (le_trans hd (by decide))
  have := fmul_int (.inl rfl) hs hs (by
    rw [Int.natAbs_mul]
    exact le_trans (Nat.mul_le_mul hd hd) (by decide))
  rw [this]
  trivial

/-- The pairs of adjacent elements of the data of `zip_simd` below. -/
theorem exAdjacent (data : List (BitVec 32)) (k : Nat) (h : ∀ x ∈ data, x.toInt.natAbs ≤ k) (i : Nat)
    (h0 : 2 * i < data.length) (h1 : 2 * i + 1 < data.length) :
    data[2 * i].toInt.natAbs + data[2 * i + 1].toInt.natAbs ≤ 2 * k := by
  have := h _ (List.getElem_mem h0)
  have := h _ (List.getElem_mem h1)
  omega

/-- The numbers 1, 2, 3 and 4. -/
def exInts : List (BitVec 32) := [1#32, 2#32, 3#32, 4#32]

theorem exInts_small : ∀ x ∈ exInts, x.toInt.natAbs ≤ 5 := by simp [exInts]

/-! ### The theorems -/

example := C106_map exF32_lanewise release64 9 exFloats (by decide) (by decide) (by decide) (by decide)
example := C106_map_scalar exF32_lanewise release64 9 exFloats (by decide) (by decide) (by decide) (by decide)
example := C106_threes exF32_lanewise rsqrt_fallback release64 9 exFloats exFloats_large (by decide)
  (by decide) (by decide) (by decide)
example := C106_map_fill exF32_lanewise release64 9 exFloats (List.replicate 6 0) (by decide) (by decide)
  (by decide) (by decide) (by decide)
example := C106_reduce exF32_lanewise rsqrt_fallback exFollows (seqPlan_lanes 4) release64 9 exFloats
  exFloats_large (by decide) (by decide) (by decide) (by decide) (by decide)
example := C106_reduce_any exF32_lanewise rsqrt_fallback exFollows (seqPlan_lanes 4) release64 9 exFloats
  exFloats_nonzero (by decide) (by decide) (by decide) (by decide) (by decide)
example := C106_reduce_near exF32_lanewise exFollows (seqPlan_lanes 4) release64 9 exFloats
  exFloats_nonzero (by decide) (by decide) (by decide) (by decide) (by decide)
example := C106_reduce_false exF32_lanewise rsqrt_fallback exFollows (seqPlan_lanes 4) release64 9
  (exFloats.take 3) (by decide) (by decide) (by decide) (by decide)
example := rsqrt_ceil rsqrt_fallback (exInt 5 (by decide)) (by norm_num)
example := C107_reduced exF32_lanewise exFollows (seqPlan_lanes 4) release64 9 [fofInt 32 17] (fun _ => 2)
  (by
    intro x hx
    rw [List.mem_singleton] at hx
    subst hx
    exact ⟨_, exInt 17 (by decide), by norm_num, by norm_num, by norm_num⟩)
  (by decide) (by decide) (by decide) (by decide)
example := C107_example exF32_lanewise exFollows (seqPlan_lanes 4) release64 10 (by decide) (by decide)
  (by decide)
example := C107_lots_of_3s exF32_lanewise rsqrt_fallback release64 10 (by decide) (by decide) (by decide)
example := C108_latency exLatency release64 9 exFloats (List.replicate 6 0) (by decide) (by decide)
  (by decide) (by decide) (by decide)
example := C108_value (exInt 5 (by decide)) (by norm_num) (by norm_num)
example := C108_negative (exInt (-5) (by decide)) (by norm_num)
example := C108_benchmark exLatency release64 3 (List.replicate 3 0) (by decide) (by decide) (by decide)
  (by decide)

example := C71_versions release64 rfl exI8x16 exI8x32 exUp
example := C41_i8x16 exI8x16 (Packed.splat 100)
example := C41_i8x32 exI8x32 (Packed.splat 100)
example := C41_u16x16 debug64 exUp (Packed.splat 60000)
example := C42_i8x16 exI8x16 (Packed.splat 100)
example := C42_i8x32 exI8x32 (Packed.splat 100)
example := C42_16x16 debug64 true exUpSigned (Packed.splat 60000)
example := C42_false exI8x16 exI8x32
example := C112_sums debug64 exI8x16 exI8x32 exUp

example := C100_zip_simd_partial exZipRows true false true debug64 9 exInts
  (by decide) (by decide) (by decide)
  (fun i h0 h1 => (exAdjacent _ 5 exInts_small i h0 h1).trans_lt (by norm_num))
example := C100_benchmark exZipRows true false true debug64 9 3 (by decide) (by decide) (by decide)
example := C100_false exZipRows true false true
example := C100_zip_simd exZipRows true false true debug64 9 [1, 2, 3, 4, 5] (by decide) (by decide)
  (by decide)
example := C110_zip_partial exZipRows true false true debug64 9 exInts (by decide) (by decide)
  (by decide) (by decide) (fun i h0 h1 => (exAdjacent _ 5 exInts_small i h0 h1).trans (by norm_num))
example := C110_zip_false exZipRows true false true

example := C63_integers (.inl rfl) exFollows (seqPlan_lanes 4) (Packed.splat (fofInt 32 7)) (fun _ => 7)
  (fun i h => by simpa [Packed.splat] using exInt 7 (by decide)) (by decide)
example := C109_reduce (.inl rfl) (fun x => x) exFollows (seqPlan_lanes 4) release64 9 exFloats 0 (by decide)
  (by decide) (by decide) exFloats_finite (.inl (by decide))
example := C109_scalar (.inl rfl) (fun x => x) exFloats exFloats_finite
example := C112_kernel_error (.inl rfl) exFollows (seqPlan_lanes 4) release64 9 exFloats exFloats (by decide)
  (by decide) (by decide) (by decide) (by decide) exPairs_square
example := C111_dot_product (.inl rfl) exFollows (seqPlan_lanes 4) release64 9 exFloats exFloats (by decide)
  (by decide) (by decide) (by decide) exFloats_finite exFloats_finite exPairs_product

theorem exBase100 : Base100Right (base100Of 4 release64 upcastRows[0] upcastRows[2] downcastRows[6] swapRows[5]
    true true true true true) :=
  base100Of_right (.inl rfl) release64 _ _ _ _ _ _ _ _ _ (by simp) (by simp) (by simp) (by simp) (by decide)
    (by decide) (by decide) (by decide)

example := C99_simd exBase100 (by decide) (by decide) release64 9 (List.replicate 20 123) (List.replicate 130 0)
  (by decide) (by decide) (by decide)
example := C99_simd_whole exBase100 (by decide) (by decide) release64 9 (List.replicate 32 123)
  (List.replicate 130 0) (by decide) (by decide) (by decide) (by decide) (by decide)
example := C99_never_right exBase100 (by decide) (by decide) release64 9 (List.replicate 32 123)
  (List.replicate 130 0) (by decide) (by decide) (by decide) (by decide) (by decide)
example := C99_lossy exBase100 (by decide) (by decide) release64 9 (List.replicate 16 123)
  (List.replicate 16 (123 + 64)) (List.replicate 130 0) (by decide) (by decide) (by decide) (by decide)
  (by decide) (by simp)
  (fun i h _ => by simp only [List.getElem_replicate]; decide)
example := C99_false (.inl rfl) upcastRows[0] upcastRows[2] downcastRows[6] swapRows[5] true true true true true
  (by simp) (by simp) (by simp) (by simp) (by decide) (by decide) (by decide) (by decide)

end Faster
