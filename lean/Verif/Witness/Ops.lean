import Verif.Witness.Floats

/-!
# Concrete states meeting the hypotheses: vectors and single operations
-/

namespace Faster
open Res

set_option maxRecDepth 4000

/-! ### Integers -/

theorem exPairsFit : PairsFit (n := 8 * haddRows[12].size) (w := haddRows[12].width) true (fun x1 x2 => x1 + x2)
    (Vector.replicate _ 1) := by
  intro i _
  simp only [Vector.getElem_replicate]
  decide +kernel

theorem exPairsFit_sub : PairsFit (n := 8 * hsubRows[12].size) (w := hsubRows[12].width) true (fun x1 x2 => x1 - x2)
    (Vector.replicate _ 1) := by
  intro i _
  simp only [Vector.getElem_replicate]
  decide +kernel

example := C40_hadd_exact debug64 haddRows[12] (by simp) (by decide) (by decide) _ _ exPairsFit exPairsFit
example := C40_hsub_exact debug64 hsubRows[12] (by simp) (by decide) (by decide) _ _ exPairsFit_sub exPairsFit_sub
example := C40_hadd_debug_overflow debug64 rfl haddRows[12] (by simp) (by decide)
  (Vector.replicate _ (BitVec.intMax _)) (Vector.replicate _ 0)
  (.inl fun h => absurd (h 0 (by decide)) (by simp only [Vector.getElem_replicate]; decide +kernel))
example := C40_hsub_debug_overflow debug64 rfl hsubRows[0] (by simp) (by decide)
  #v[0, 1] (Vector.replicate _ 0)
  (.inl fun h => absurd (h 0 (by decide)) (by decide +kernel))
example := C41_fallback_debug debug64 rfl .u (by decide) (#v[200, 100, 0, 0] : Vector (BitVec 8) 4) (j := 2)
  (by decide) (by decide +kernel)
example := i8Correct (w := 16) debug64 cmpRows[3] cmpRows[2] absRows[4] true true true ⟨by simp, by decide⟩
  ⟨by simp, by decide⟩ ⟨by simp, by decide⟩
example := C43_optimized (n := 32) (w' := 4) (c := release64) .sse (by decide) (by decide) (Vector.replicate 4 9)
example := C127_popcnt_versions (n := 32) (w := 4) release64 (size := 4) (b := 16) (idx := [0, 4]) rfl (by decide)
  (by decide) (by decide) (by decide)
example := C127_sum_debug (c := debug64) rfl (k := .u) (up := fun v => sumUpcastFallback debug64 .u v)
  (.fallback .u 8 4) (by decide) 100 (by decide +kernel)
example := C127_sum_i8 (c := release64) rfl (.i8x16 _ exI8x16) (.i8x32 _ exI8x32) exI8x16 exI8x32 5
example := C127_saturating debug64 satHaddRows[0] 200 3 400 6 1 2 3 4 3 7 _ (.inl ⟨by simp, rfl⟩) (by decide +kernel)
  (by decide +kernel) (by decide +kernel) (by decide +kernel)
example := C52_compose (n := 16) (w' := 2) (n' := 32) (w'' := 1) (#v[1, 2, 3, 4] : Vector (BitVec 8) 4) (by decide)
  (by decide)
example := C118_parallel release64 9 [(1 : BitVec 8), 2, 3, 4] [5, 6, 7] (Vector.replicate 2 0) (· + ·) 0
  (fun x y z => BitVec.add_assoc x y z) (fun x => BitVec.zero_add x) (fun x => BitVec.add_zero x) (by decide)
  (by decide) (by decide) (by decide)
example := C64_avx2 (.upTo 7 (by decide)) (by decide)
example := C95_pairs (softInts.headD ("", 0)) (by decide +kernel) (softInts.getLastD ("", 0)) (by decide +kernel)
example := C95_path (v := (#v[1, 2, 3, 4] : Vector (BitVec 8) 4)) (.step (n' := 16) (w'' := 2) .refl (by decide))
example := C129_eq debug64 eqRows[4] (by decide) _ (.inl ⟨by simp, rfl⟩) 1 2
example := C111_vectors_int (.inl rfl) exFollows (seqPlan_lanes 4) (fun _ => 7) [Packed.splat (fofInt 32 7)]
  (by
    intro x hx
    simp [lanes, Packed.splat] at hx
    subst hx
    exact exInt 7 (by decide))
  (by decide)
example := C139_reduce (w := 4) release64 100 [(1 : BitVec 8), 2, 3, 4, 5] (Vector.replicate 4 0)
  (Vector.replicate 4 1) (Lifts2.binop (op := fun x y => ok (x + y)) 0 fun _ _ => .inl ⟨_, rfl⟩)
  (by decide) (by decide) (by decide)

/-! ### Floats -/

theorem exNine : ieee (fofInt 32 9) = .fin (3 * 3) := by
  rw [exInt 9 (by decide)]
  norm_num

theorem exOne : ieee (fofInt 32 1) = .fin 1 := by
  rw [exInt 1 (by decide)]
  norm_num

theorem exNotNan (z : ℤ) (h : z.natAbs ≤ 2 ^ 24) : ieee (fofInt 32 z) ≠ .nan := by
  rw [exInt z h]
  nofun

example := C129_eq_float debug64 eqRows[6] (by decide) _ (.inl ⟨by simp, rfl⟩) (fofInt _ 1) (fofInt _ 2)
example : ∃ v : Vector (BitVec 32) 4, v = v :=
  (C65_optimized eqRows[6] (by simp) (by decide) (Vector.replicate 4 (fofInt 32 1)) (Vector.replicate 4 (fofInt 32 2))).elim
    fun v h => ⟨v, C65_unique h.2 h.2⟩

/-- A vector of the float 3. -/
abbrev exThrees : Vector (BitVec (8 * roundRows[2].size)) roundRows[2].width := Vector.replicate _ (fofInt 32 3)

example : ∃ v v' : Vector (BitVec 32) 4, roundOptimized roundRows[2] exThrees = ok v ∧ roundFallback roundRows[2] exThrees = ok v' ∧
    v[0]'(by decide) = v'[0]'(by decide) := by
  obtain ⟨v, e, -⟩ := C67_optimized roundRows[2] (by simp) (by decide) exThrees
  obtain ⟨v', e', -⟩ := C67_fallback roundRows[2] (.inl (by simp)) (by decide) exThrees
  exact ⟨v, v', e, e', C67_agree _ (by simp) (by decide) _ v v' e e' 0 (by decide) (exNotNan 3 (by decide))⟩

example : ∃ v v' : Vector (BitVec 32) 4, roundOptimized roundRows[0] exThrees = ok v ∧ roundFallback roundRows[0] exThrees = ok v' ∧
    (v[0]'(by decide) ≠ v'[0]'(by decide) ↔
      ∃ x j, ieee (fofInt 32 3) = FVal.fin x ∧ |x| = 2 * ((j : ℕ) : ℚ) + 1 / 2) := by
  obtain ⟨v, e, -⟩ := C68_optimized roundRows[0] (by simp) (by decide) exThrees
  obtain ⟨v', e', -⟩ := C68_fallback roundRows[0] (.inl (by simp)) (by decide) exThrees
  exact ⟨v, v', e, e', C68_agree_partial _ (by simp) (by decide) _ v v' e e' 0 (by decide) (exNotNan 3 (by decide))⟩

theorem exRounded (f : UnFn) (h : f = .floor ∨ f = .ceil ∨ f = .trunc) :
    IsRounded (n := 32) (directed f) (fofInt 32 3) (fofInt 32 3) := by
  unfold IsRounded
  rw [exInt 3 (by decide)]
  refine ⟨rfl, 3, by norm_num, ?_⟩
  rcases h with rfl | rfl | rfl <;> simp [directed]

theorem exNearest : IsRounded (n := 32) IsNearest (fofInt 32 3) (fofInt 32 3) := by
  unfold IsRounded
  rw [exInt 3 (by decide)]
  exact ⟨rfl, 3, by norm_num, fun j => by simp⟩

theorem exNoTie : NoTie (fofInt 32 3) := by
  intro v k h
  rw [exInt 3 (by decide)] at h
  obtain rfl : (3 : ℚ) = v := by simpa using h
  intro e
  have : |((3 - k : ℤ) : ℚ)| = 1 / 2 := by push_cast; exact e
  rw [← Int.cast_abs] at this
  have h2 : ((2 * |3 - k| : ℤ) : ℚ) = (1 : ℤ) := by push_cast at this ⊢; rw [this]; norm_num
  have := Int.cast_injective h2
  omega

example := C67_integer (n := 32) .floor (.inl rfl) (.inl rfl) 3 (exInt 3 (by decide)) (exRounded _ (.inl rfl))
example := C115_round_directed roundRows[2] (by decide) _ _ (exNotNan 3 (by decide)) (exRounded _ (.inl rfl))
example := C115_round_partial roundRows[0] (by decide) _ _ (exNotNan 3 (by decide)) exNoTie exNearest
example := C115_sqrt true sqrtRows[2] (by simp) (fofInt 32 9) (fofInt 32 3) 3 (by norm_num) (exInt 3 (by decide))
  exNine

theorem exMax : ExtremeOn (n := 32) (w := 4) true (binaryInstr cmpRows[13].mm) :=
  C129_max_min debug64 cmpRows[13] (by decide) rfl rfl _ (.inl ⟨by simp, rfl⟩)

theorem exMin : ExtremeOn (n := 32) (w := 4) false (binaryInstr cmpRows[12].mm) :=
  C129_max_min debug64 cmpRows[12] (by decide) rfl rfl _ (.inl ⟨by simp, rfl⟩)

example := C129_sqrt true sqrtRows[2] (by simp) exMax exMin (fofInt 32 1) (fofInt 32 9) (fofInt 32 3) (fofInt 32 2)
  (fofInt 32 4) 3 (by norm_num) exOne exNine
  (exInt 3 (by decide)) (exNotNan 2 (by decide)) (exNotNan 4 (by decide))
example := C129_sqrt_literals true sqrtRows[2] (by simp) exMax exMin
example := C126_round_up true roundRows[0] (by simp) 20 (by decide) (by decide) 30 1 (fofInt 32 1) (by decide)
  (exInt 1 (by decide)) (by decide) (by decide)
example := C126_round_down true roundRows[0] (by simp) (-20) (by decide) (by decide) 30 (-1) (fofInt 32 (-1))
  (by decide) (exInt (-1) (by decide)) (by decide) (by decide)
example := C126_recip (w := 4) (by decide) (recip := fun v => ok (v.map frecip)) (fun _ => rfl) recip_fallback 20
  (by decide) 30 (-5) (fofInt 32 (-5)) (by decide) (exInt (-5) (by decide)) (by decide) (by decide) (by decide)
example := C126_recip_doc (w := 4) (c := debug64) (by decide) (m := fun v => ok (v.map frecip)) (fun _ => rfl)
  recip_fallback (exInt 1 (by decide)) (by norm_num) (by norm_num) (exInt 1 (by decide)) (by norm_num)
example := C126_rsqrt_doc (w := 4) (c := debug64) (by decide) (m := fun v => ok (v.map fun x => frecip (fsqrt x)))
  (fun _ => rfl) rsqrt_fallback (exInt 1 (by decide)) (by norm_num) (exInt 1 (by decide)) (by norm_num)
example := C127_abs_float true absRows[0] (by simp) (by decide) 20 (by decide) 30 (-5) (fofInt 32 (-5)) (by decide)
  (exInt (-5) (by decide)) (by decide) (by decide)
example := C132_invalid (n := 32) (.inl rfl) (fofInt 32 3) (fofInt 32 4) (exNotNan 3 (by decide))
  (exNotNan 4 (by decide))
example := C53_false (n := 32) (w := 4) debug64 0x7fc00000 (by decide) (by decide) (by decide)
example := C121_float_partial (n := 32) (w := 2) debug64 (.inl rfl) (by decide) #v[fofInt 32 3, fofInt 32 4] [3, 4]
  (by
    have h3 := exInt 3 (by decide)
    have h4 := exInt 4 (by decide)
    simp only [Int.cast_ofNat] at h3 h4
    simp [h3, h4])
  4 (by
    intro q hq
    simp only [List.mem_cons, List.not_mem_nil, or_false] at hq
    rcases hq with rfl | rfl <;> norm_num)
  (by norm_num)
example : ∃ a b : Vector (BitVec 64) 2, IsFloatUpcast (n := 32) Kind.f (Vector.replicate 4 (fofInt 32 3)) a b ∧
    ∃ o : Vector (BitVec 32) 4, downcastFloat downcastRows[3].lanes a b = ok o := by
  obtain ⟨a, b, -, h⟩ := C103_fallback upcastRows[8] (by simp) (by decide) (Vector.replicate _ (fofInt 32 3))
  obtain ⟨o, e, -⟩ := C104_round_trip downcastRows[3] (by simp) (by decide) _ a b h (by
    intro x hx
    obtain rfl : x = fofInt 32 3 := List.eq_of_mem_replicate hx
    exact exNotNan 3 (by decide))
  exact ⟨a, b, h, o, e⟩

end Faster
