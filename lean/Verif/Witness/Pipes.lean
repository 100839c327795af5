import Verif.Witness.Iters

/-!
# Concrete states meeting the hypotheses: pipelines, mixed zips and floats
-/

namespace Faster
open Res

set_option maxRecDepth 4000

/-! ### Operations through iterators -/

theorem exLaneOp : LaneOp2 (w := 4) (fun a b c : BitVec 8 => c = a + b)
    (fun a b => ok (Vector.zipWith (· + ·) a b)) := fun a b => ⟨_, rfl, fun i hi => by simp⟩

example := C73_zip exLaneOp release64 9 exBytes [6, 7, 8, 9, 10] exZeros exZeros rfl (by decide) (by decide) (by decide)
  rfl (by decide) (by decide)

/-! ### The two versions of `end` -/

example := C80_end_partial (T := SIMDIter (Slice (BitVec 8) 4) (BitVec 8) 4) (s := 1) release64 rfl (by decide) rfl
  (by decide) (by decide) (iterAt exBytes exZeros 4) (by
    rintro pos len ⟨⟩ ⟨⟩ -
    decide)
example := C80_zip_partial (A := Slice (BitVec 8) 4) (s := 1) release64 rfl (by decide) rfl (by decide) (by decide)
  (blendWidths_cons (T := SIMDIter (Slice (BitVec 8) 4) (BitVec 8) 4) (w' := 4) (s := 1) rfl (by decide) rfl
    (by decide) (by decide) (blendWidths_unit 4))
  ⟨iterAt exBytes exZeros 4, (iterAt exBytes exZeros 0, ())⟩ (.inr (by
    rintro len ⟨⟩ -
    decide))

/-! ### Maps over zips -/

/-- Rows packed like their first column. -/
abbrev exPackRow : Packable (BitVec 8 × BitVec 8 × Unit) := ⟨Packable.size (BitVec 8), (0, 0, ())⟩

example := @C90_zip_map_calls (SIMDIter (Slice (BitVec 8) 4) (BitVec 8) 4 × Unit) (BitVec 8) _ _ (BitVec 8) Unit 4 4 _ _
  exPackRow _ _ release64 exRows exDv exRest exRep (by decide) rfl (fun _ v => ok (exAdd v, ())) [.next, .end_] () 0
  (by decide)
example := @C90_two (BitVec 8) (BitVec 8) _ 4 release64 exBytes [6, 7, 8, 9, 10] exZeros exZeros 0 0 (BitVec 8) Unit _ 4
  exPackRow rfl rfl (by decide) (by decide) (by decide) () (fun _ v => ok (v.1, ())) [.next, .end_]

/-! ### Pipelines -/

theorem exSource : Source release64 (SIMDIter (Slice (BitVec 8) 4) (BitVec 8) 4) (BitVec 8) 4 inferInstance inferInstance
    inferInstance (simdIter exBytes exZeros) exBytes := .slice _ _ (by decide) (by decide)

theorem exSources : SourceRest release64 exBytes.length 4 (SIMDIter (Slice (BitVec 8) 4) (BitVec 8) 4 × Unit)
    (Vector (BitVec 8) 4 × Unit) (BitVec 8 × Unit) inferInstance (fun v => (v.map Prod.fst, ()))
    (simdIter exBytes exZeros, ()) (exBytes.zip (List.replicate 5 ())) := .cons exSource rfl .nil

example := C91_pipeline (.source exSource rfl (by decide) (by decide))
example := C91_zip (.zip exSource exSources rfl rfl (by decide))
example := C96_short_rest_partial (.source (.slice (c := release64) [(1 : BitVec 8), 2] exZeros (by decide) (by decide))
  (by decide) (by decide)) (by decide) 9 (by decide) [0] (by decide)
example := C145_pipeline_partial (.source exSource rfl (by decide) (by decide))
example := C145_zip_partial (.zip exSource exSources rfl rfl (by decide))
example := C116_zip (T := SIMDIter (Slice (BitVec 8) 4) (BitVec 8) 4) zipArms[0] (by simp [zipArms]) release64
  (simdIter exBytes exZeros)

/-! ### Collecting maps -/

example := C130_lanewise_size_iff (β := BitVec 16) (a := 0) (b := 1) exDriverBytes 9 (fun x => x.zeroExtend 16) (by decide) rfl rfl (by decide)
  (by decide)
example := C130_returns_iff (β := BitVec 16) (w' := 4) exDriverBytes 9 (fun v => v.map fun x => x.zeroExtend 16) (by decide)
  (by decide) (by decide) _ rfl (by decide) (by decide)
example := C130_ub_iff (β := BitVec 16) (w' := 4) exDriverBytes 9 (fun v => v.map fun x => x.zeroExtend 16) (by decide)
  (by decide) (by decide) _ rfl (by decide) (by decide)
example := C77_map_pure (β := BitVec 8) (w' := 4) release64 _ (tailBound_slice release64 exBytes exZeros (by decide) (by decide)) id (by decide)
  [.next, .end_] _ ⟨0, by decide, rfl⟩
example := C144_overflow_debug ⟨true, 16⟩ rfl 9 (simdIter (List.replicate 13 (1 : BitVec 8)) exZeros) rfl (by decide)
  (by decide)
example := C144_overflow_release (β := BitVec 8) (w' := 8) (c := ⟨false, 16⟩) rfl 9 (List.replicate 8 (1 : BitVec 8)) exZeros () (fun _ _ => ok (Packed.splat 0, ())) (by decide)
  (by decide) (by decide) (by decide) (by decide) (by decide) rfl (by decide)
example := C144_panics (List.replicate (2 ^ 31 - 1) 0) List.length_replicate true 9
example := C144_false (List.replicate (2 ^ 27) 0) List.length_replicate (fun _ => Packed.splat 0) (2 ^ 26 + 1)
  (Nat.lt_succ_self _)

/-! ### The padding of zips -/

example := C133_zip_end release64 ⟨iterAt exBytes exZeros 4, (iterAt exBytes exZeros 0, ())⟩ _ _ _ _ rfl (by decide)
  ⟨⟨5, rfl, by decide⟩, trivial⟩ rfl

/-! ### Iterators which go wrong -/

example := C135_collect_endless release64 9 (⟨[#v[1, 2], #v[3, 4]], none, 0⟩ : Stub) [#v[1, 2], #v[3, 4]] 0
  (.cons rfl (.cons rfl (.nil _))) rfl (by decide) (by decide) (by decide) (by decide)

/-- The closure of the map panics at its second call, from `end`. -/
theorem exEmits : Emits release64 (simdMap (simdIter exBytes exZeros) 0 (exSecond id : FnMut Nat (Vector (BitVec 8) 4) (Vector (BitVec 8) 4))) [#v[1, 2, 3, 4]]
    panic := ⟨_, .step rfl (.done rfl), rfl⟩

example := C135_panics release64 9 _ _ (List.replicate 8 0) exEmits (by decide) (by decide)
example := C135_collect_panics release64 9 _ _ 1 exEmits rfl (by decide) (by decide) (by decide)

/-! ### Collections of users -/

example := C136_for_each (agreesMut_counted (α := BitVec 8) (w := 4) release64) (a := ⟨exBytes, 0⟩) rfl 9 exZeros () ()
  (fun _ v => ok (v, ())) _ (by decide) (by decide) (by decide) rfl
example := C136_for_each_panic (agreesMut_counted (α := BitVec 8) (w := 4) release64) (a := ⟨exBytes, 0⟩) rfl 9 exZeros 0 1
  (exSecond id) _ 1 _ (by decide) (by decide) (by decide) rfl rfl rfl

/-! ### Reductions -/

example := C141_zip_lane_at exEverywhere (by decide) exRep (by decide) 9 exZeros (fun a t => a + t.1 + t.2.1)
  (fun a v => Vector.zipWith (· + ·) a (exAdd v)) (fun a v => by
    rw [exAdd_lanes]
    apply Vector.ext
    intro i hi
    simp [BitVec.add_assoc]) 1 (by decide) 1 (by decide) (by decide) (by decide) (by decide)
example := C142_again (A := Nat) exDriverBytes 9 9 0 () () () (fun _ _ => ok ((), ())) (fun _ _ => ok ((), ())) 0
  (fun _ a _ => ok (a + 1, ())) _ (by decide) (by decide) (.inl rfl) (by decide) rfl
example := C142_again_at (A := Nat) exEverywhere 9 9 () () () (fun _ _ => ok ((), ())) (fun _ _ => ok ((), ())) 0
  (fun _ a _ => ok (a + 1, ())) _ 1 (by decide) (by decide) 1 (by decide) (by decide) (by decide) rfl
example := C146_zip_blend (.iter (.slice (BitVec 8) 4)) (.cons (.iter (.slice (BitVec 8) 4)) .nil) (2 ^ 64)
  ⟨iterAt exBytes exZeros 4, (iterAt exBytes exZeros 0, ())⟩

/-! ### The order of zips -/

/-- Exchanges the two columns. -/
abbrev exSwap : BitVec 8 × BitVec 8 × Unit → BitVec 8 × BitVec 8 × Unit := fun t => (t.2.1, t.1, ())

theorem exDriverSwap : Driver release64 (fun p => iterAt ((exRows.map exSwap).map Prod.fst) ((exDv.map exSwap).map Prod.fst) p)
    ((exRows.map exSwap).map Prod.fst) ((exDv.map exSwap).map Prod.fst) (fun p => p + 4 ≤ 5) :=
  simdIter_driver (represents_slice _ _) _ (by decide) (by decide)

theorem exRepSwap : LawfulRest.Rep release64 (simdIter (((exRows.map exSwap).map Prod.snd).map Prod.fst)
    (((exDv.map exSwap).map Prod.snd).map Prod.fst), ())
    ((exRows.map exSwap).map Prod.snd) ((exDv.map exSwap).map Prod.snd) :=
  ⟨repIter_simdIter _ _ _ _ (by decide) (by decide), trivial⟩

theorem exAdd_swap (v : Vector (BitVec 8 × BitVec 8 × Unit) 4) :
    exAdd (packRow (SIMDIter (Slice (BitVec 8) 4) (BitVec 8) 4 × Unit) (v.map exSwap)) =
      exAdd (packRow (SIMDIter (Slice (BitVec 8) 4) (BitVec 8) 4 × Unit) v) := by
  rw [exAdd_lanes, exAdd_lanes]
  apply Vector.ext
  intro i hi
  simp [BitVec.add_comm]

example := C150_reduce_partial exSwap exDriver exRep exDriverSwap exRepSwap (by decide) (by decide) 9 exZeros ()
  (fun _ a v => ok (Vector.zipWith (· + ·) a (exAdd v), ())) (fun _ a v => ok (Vector.zipWith (· + ·) a (exAdd v), ()))
  (fun _ a v => by rw [exAdd_swap]) (by decide)
example := C150_do_each_partial exSwap exDriver exRep exDriverSwap exRepSwap (by decide) (by decide) 9 exZeros
  (fun a v => ok ((), Vector.zipWith (· + ·) a (exAdd v))) (fun a v => ok ((), Vector.zipWith (· + ·) a (exAdd v)))
  (fun a v => by rw [exAdd_swap]) (by decide)
example := C150_collect_partial exSwap exDriver exRep exDriverSwap exRepSwap (by decide) (by decide) (by decide) 9 ()
  (fun _ v => ok (exAdd v, ())) (fun _ v => ok (exAdd v, ()))
  (fun _ v => by rw [exAdd_swap]) (by decide) rfl rfl (by decide) (by decide) (by decide)

/-- Two collections behind the first. -/
theorem exRep2 : LawfulRest.Rep release64
    (simdIter (exRows.map Prod.fst) (exDv.map Prod.fst), simdIter ((exRows.map Prod.snd).map Prod.fst)
      ((exDv.map Prod.snd).map Prod.fst), ()) exRows exDv :=
  ⟨repIter_simdIter _ _ _ _ (by decide) (by decide), repIter_simdIter _ _ _ _ (by decide) (by decide), trivial⟩

example := C150_followers _ _ _ _ _ exRep2
example := C150_deeper _ _ _ id _ _ exRep2 (fun rows dv h => by simpa using h)

/-! ### Conversions -/

example := @C47_pack128_partial upcastRows[7] (by simp) downcastRows[7] (by simp) (by decide) _ rfl

/-! ### Sums of floats -/

open Classical in
/-- The value of a float, if it is one of these integers. -/
noncomputable abbrev exZ (x : BitVec 32) : ℤ :=
  if h : ∃ z : ℤ, 2 ≤ z ∧ z ≤ 5 ∧ ieee x = .fin z then h.choose else 0

theorem exZ_spec : ∀ x ∈ exFloats, ieee x = .fin (exZ x : ℚ) := by
  intro x hx
  have h := exFloats_ints x hx
  rw [exZ, dif_pos h]
  exact h.choose_spec.2.2

theorem exZ_le (x : BitVec 32) : (exZ x).natAbs ≤ 5 := by
  rw [exZ]
  split
  · rename_i h
    have := h.choose_spec
    omega
  · decide

example := C111_vectors_int (.inl rfl) exFollows (seqPlan_lanes 4) exZ
  [#v[fofInt 32 2, fofInt 32 3, fofInt 32 4, fofInt 32 5]] exZ_spec (by
    have h := exZ_le
    have h1 := h (fofInt 32 2)
    have h2 := h (fofInt 32 3)
    have h3 := h (fofInt 32 4)
    have h4 := h (fofInt 32 5)
    show (exZ (fofInt 32 2)).natAbs + ((exZ (fofInt 32 3)).natAbs + ((exZ (fofInt 32 4)).natAbs +
      ((exZ (fofInt 32 5)).natAbs + 0))) ≤ 2 ^ 24
    omega)
example := C112_kernel_float (.inl rfl) exFollows (seqPlan_lanes 4) release64 9 exFloats exFloats rfl (by decide)
  (by decide) (by decide) (by decide) exZ exZ_spec exZ_spec (by
    simp [exFloats])

/-- Rows of floats. -/
abbrev exFRows : List (BitVec 32 × BitVec 32 × Unit) := exFloats.map fun x => (x, x, ())

/-- The default of the rows. -/
abbrev exFDv : Vector (BitVec 32 × BitVec 32 × Unit) 4 := Packed.splat (0, 0, ())

theorem exFDriver : Driver release64 (fun p => iterAt (exFRows.map Prod.fst) (exFDv.map Prod.fst) p) (exFRows.map Prod.fst)
    (exFDv.map Prod.fst) (fun p => p + 4 ≤ 4) := simdIter_driver (represents_slice _ _) _ (by decide) (by decide)

theorem exFRep : LawfulRest.Rep release64 (simdIter ((exFRows.map Prod.snd).map Prod.fst) ((exFDv.map Prod.snd).map Prod.fst), ())
    (exFRows.map Prod.snd) (exFDv.map Prod.snd) := ⟨repIter_simdIter _ _ _ _ (by decide) (by decide), trivial⟩

theorem exFRows_finite : ∀ x ∈ exFRows, (ieee x.1).Finite := by
  intro x hx
  obtain ⟨y, hy, rfl⟩ := List.mem_map.1 hx
  exact exFloats_finite y hy

example := C111_zip_reduce (.inl rfl) exFollows (seqPlan_lanes 4) exFDriver (by decide) exFRep (by decide) 9
  (fun v => v.1) (fun t => t.1) (fun v => rfl) (by decide) exFRows_finite (.inl (by decide))
example := C111_zip_map_reduce (.inl rfl) exFollows (seqPlan_lanes 4) exFDriver (by decide) exFRep (by decide) 9
  (fun v => v.1) (fun t => t.1) (fun v => rfl) (by decide) (by decide) exFRows_finite (.inl (by decide))

/-- Lanes holding 2. -/
abbrev exTwos : Vector (BitVec 32) 2 := Vector.replicate 2 (fofInt 32 2)

theorem exTwo : laneInt (fofInt 32 2) = 2 := by
  rw [laneInt, exInt 2 (by decide)]
  simp [FVal.toInt, truncate, nearest]

example := C121_float_fits debug64 (.inl rfl) exTwos (fun j hj => by
  have h : exTwos.toList = [fofInt 32 2, fofInt 32 2] := rfl
  rw [h]
  match j, hj with
  | 0, _ => rfl
  | 1, _ => simp [exTwo, Fits, nearest]
  | 2, _ => simp [exTwo, Fits, nearest])

/-- Infinite lanes. -/
abbrev exInfs : Vector (BitVec 32) 2 := Vector.replicate 2 0x7f800000#32

theorem exInf : laneInt 0x7f800000#32 = 2 ^ 63 - 1 := by
  have h : ieee 0x7f800000#32 = .inf false := by
    simp [ieee]
    decide
  rw [laneInt, h]
  rfl

example := C121_float_debug debug64 rfl (.inl rfl) exInfs (j := 2) (by decide) (by
  have h : exInfs.toList = [0x7f800000#32, 0x7f800000#32] := rfl
  rw [h]
  simp [exInf, Fits, nearest])

example := C133_zip_end_stride release64 ⟨{ strideAt (⟨exBytes⟩ : Slice (BitVec 8) 4) 1 0 exZeros with pos := 4 }, (iterAt exBytes exZeros 0, ())⟩
  _ (#v[0, 0, 0, 5], (#v[0, 0, 0, 5], ())) 3 5 rfl (by decide) ⟨⟨5, rfl, by decide⟩, trivial⟩ rfl
end Faster
