import Verif.BenchZipSoft
import Verif.Props.CheckedPairs
/-
C110 and C139: `stride_zip` and `stride_zip_naive` on targets without vector instructions.
-/
namespace Faster
open Res SIMDSized SIMDIterable SIMDIterator

theorem lifts_add8 (c : Cfg) (w : Nat) :
    Lifts (w := w) (fun v => (fun t : Vector (BitVec 8) w × Vector (BitVec 8) w =>
      Soft.binop (addInt c .u) 0#8 t.1 t.2) (unzipV v)) (fun x => addInt c .u x.1 x.2) := by
  have := Lifts.binop (w := w) (op := addInt (n := 8) c .u) 0#8
    (fun a b => overflowCheck_total _ _ _ _) (Lifts.pure Prod.fst) (Lifts.pure Prod.snd)
  simpa [unzipV] using this

theorem addInt8_if (c : Cfg) (x : BitVec 8 × BitVec 8) : addInt c .u x.1 x.2 =
    if (c.debug && decide (2 ^ 8 ≤ x.1.toNat + x.2.toNat)) then Res.panic else ok (x.1 + x.2) := by
  rw [addInt, overflowCheck_if]
  congr 3
  rw [decide_eq_true (show Kind.lo 8 .u ≤ Kind.value .u x.1 + Kind.value .u x.2 by
    simp only [Kind.lo, Kind.value]; omega), Bool.true_and, ← decide_not]
  apply decide_eq_decide.mpr
  simp only [Kind.hi, Kind.value]
  omega

/-- The pairs `data[2i]`, `data[2i+1]` some of which overflow. -/
theorem pairs_any (dbg : Bool) (data : List (BitVec 8)) :
    ((pairsOf data).any fun x => dbg && decide (2 ^ 8 ≤ x.1.toNat + x.2.toNat)) =
      (dbg && decide (∃ i : Fin (data.length / 2),
        2 ^ 8 ≤ (data[2 * i.val]'(by omega)).toNat + (data[2 * i.val + 1]'(by omega)).toNat)) := by
  rw [Bool.eq_iff_iff, List.any_eq_true, Bool.and_eq_true, decide_eq_true_iff]
  constructor
  · rintro ⟨x, hx, hp⟩
    simp only [Bool.and_eq_true, decide_eq_true_iff] at hp
    obtain ⟨i, hi, rfl⟩ := List.getElem_of_mem hx
    rw [pairsOf_length] at hi
    exact ⟨hp.1, ⟨i, hi⟩, by simpa [pairsOf] using hp.2⟩
  · rintro ⟨hc, ⟨i, hi⟩, hp⟩
    refine ⟨(pairsOf data)[i]'(by rwa [pairsOf_length]), List.getElem_mem _, ?_⟩
    simp only [Bool.and_eq_true, decide_eq_true_iff]
    exact ⟨hc, by simpa [pairsOf] using hp⟩

/-- **C110**, `stride_zip_naive` with software vectors: a debug build panics exactly if the sum of a
pair is 256 or more; otherwise the sums modulo 256 are returned. -/
theorem C110_stride_zip_naive_soft (w : Nat) (c : Cfg) (fuel : Nat) (data : List (BitVec 8)) (hw : 0 < w)
    (hu : data.length + 2 * (w + 1) < c.usize) (hfuel : data.length / 2 / w < fuel) :
    strideZipNaiveSoft w c fuel data =
      if c.debug && decide (∃ i : Fin (data.length / 2),
        2 ^ 8 ≤ (data[2 * i.val]'(by omega)).toNat + (data[2 * i.val + 1]'(by omega)).toNat) then Res.panic
      else ok (List.ofFn (n := data.length / 2) fun i =>
        some (data[2 * i.val]'(by omega) + data[2 * i.val + 1]'(by omega))) := by
  refine Eq.trans (C139_stride_two (G := fun t : Vector (BitVec 8) w × Vector (BitVec 8) w => Soft.binop (addInt c .u) 0#8 t.1 t.2)
    (g := fun x => addInt c .u x.1 x.2) c fuel data (Packed.splat 0#8) (Packed.splat 0#8) (lifts_add8 c w) hw
    (by decide) rfl hu (by simp only [Packable.size]; omega) hfuel) ?_
  rw [mapM_checked (addInt8_if c), mapM_checked (addInt8_if c), pairs_any]
  have hpad : (padLanes w (zipV (Packed.splat 0#8, Packed.splat 0#8)) (pairsOf data)).any
      (fun x => c.debug && decide (2 ^ 8 ≤ x.1.toNat + x.2.toNat)) = false := by
    rw [List.any_eq_false]
    intro x hx
    have : x = (0#8, 0#8) := by
      unfold padLanes at hx
      split at hx
      · simp at hx
      · obtain ⟨i, hi, e⟩ := List.getElem_of_mem (List.mem_of_mem_take hx)
        rw [← e]
        simp [zipV, Packed.splat]
    subst this
    simp
  rw [hpad]
  split
  · rfl
  · simp only [ok_bind, Bool.false_eq_true, if_false]
    congr 1
    simp [pairsOf, List.map_ofFn, Function.comp_def]

/-- **C110**, `stride_zip` with software vectors: for a multiple of two vectors, as in the benchmark,
it returns and panics as `stride_zip_naive` does. Missing: other lengths (`C29_tail_lost` and beside;
`C110_stride_zip_soft_tail`). -/
theorem C110_stride_zip_soft_partial (w : Nat) (c : Cfg) (fuel : Nat) (data : List (BitVec 8)) (hw : 0 < w)
    (hmul : data.length % (2 * w) = 0)
    (hu : data.length + 2 * (w + 1) < c.usize) (hfuel : data.length / 2 / w < fuel) :
    strideZipSoft w c fuel data = strideZipNaiveSoft w c fuel data := by
  rw [C110_stride_zip_naive_soft w c fuel data hw hu hfuel]
  refine Eq.trans (C139_stride_zip_partial (G := fun t : Vector (BitVec 8) w × Vector (BitVec 8) w => Soft.binop (addInt c .u) 0#8 t.1 t.2)
    (g := fun x => addInt c .u x.1 x.2) c fuel data (Packed.splat 0#8) (lifts_add8 c w) hmul hw
    (by decide) rfl (by omega) (by simp only [Packable.size]; omega) hfuel) ?_
  rw [mapM_checked (addInt8_if c), pairs_any]
  split
  · rfl
  · simp only [ok_bind]
    congr 1
    simp [pairsOf, List.map_ofFn, Function.comp_def]

/-- **C110** is false for other lengths in debug builds without vector instructions, too: the last
call of `stride_zip` pairs elements which are no pair, so it panics although no pair overflows, and
does not panic although one does. -/
theorem C110_stride_zip_soft_tail :
    strideZipSoft 4 debug64 9 [1, 200, 100#8] = Res.panic ∧
    strideZipNaiveSoft 4 debug64 9 [1, 200, 100#8] = ok [some 201#8] ∧
    strideZipSoft 4 debug64 9 [200, 100, 1#8] = ok [some 200#8, some 101#8, some 0#8, some 0#8] ∧
    strideZipNaiveSoft 4 debug64 9 [200, 100, 1#8] = Res.panic := by
  decide +kernel

/-- Concrete states: eight elements in vectors of four lanes. -/
example : strideZipSoft 4 debug64 9 [1, 2, 3, 4, 5, 6, 200, 55] =
      ok [some 3#8, some 7#8, some 11#8, some 255#8] ∧
    strideZipSoft 4 debug64 9 [1, 2, 3, 4, 5, 6, 200, 56] = Res.panic ∧
    strideZipNaiveSoft 4 debug64 9 [1, 2, 3, 4, 5, 6, 200, 56] = Res.panic ∧
    strideZipSoft 4 release64 9 [1, 2, 3, 4, 5, 6, 200, 56] =
      ok [some 3#8, some 7#8, some 11#8, some 0#8] := by decide +kernel

example := C110_stride_zip_naive_soft 4 debug64 9 [1, 2, 3, 4, 5, 6, 200] (by decide) (by decide) (by decide)
example := C110_stride_zip_soft_partial 4 debug64 9 [1, 2, 3, 4, 5, 6, 200, 56] (by decide) (by decide)
  (by decide) (by decide)
example := C139_stride_zip (β := BitVec 8)
  (G := fun t : Vector (BitVec 8) 4 × Vector (BitVec 8) 4 => Soft.binop (addInt debug64 .u) 0#8 t.1 t.2)
  (g := fun x => addInt debug64 .u x.1 x.2) debug64 9 [1#8, 2, 3, 4, 5, 6, 200] (Packed.splat 0#8 : Vector _ 4)
  (lifts_add8 debug64 4) (by decide) (by decide) rfl (by decide) (by decide) (by decide)

end Faster
