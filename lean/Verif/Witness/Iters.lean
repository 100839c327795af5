import Verif.Witness.Floats

/-!
# Concrete states meeting the hypotheses: iterators and zips
-/

namespace Faster
open Res

set_option maxRecDepth 4000

theorem exEverywhere : Everywhere release64 exFirst (exRows.map Prod.fst) (exDv.map Prod.fst) (fun p => p + 4 ≤ 5)
    (2 ^ 64 - 4) := simdIter_everywhere (represents_slice _ _) _ (by decide) (by decide)

theorem exDriver : Driver release64 exFirst (exRows.map Prod.fst) (exDv.map Prod.fst) (fun p => p + 4 ≤ 5) :=
  simdIter_driver (represents_slice _ _) _ (by decide) (by decide)

theorem exRep : LawfulRest.Rep release64 exRest (exRows.map Prod.snd) (exDv.map Prod.snd) :=
  ⟨repIter_simdIter _ _ _ _ (by decide) (by decide), trivial⟩

theorem exDriver0 : Driver release64 exFirst (exRows.map Prod.fst)
    ((Packed.splat (0, 0, ()) : Vector (BitVec 8 × BitVec 8 × Unit) 4).map Prod.fst) (fun p => p + 4 ≤ 5) :=
  exDriver

theorem exSame : Positioned.Same (γ := Vector (BitVec 8) 4 × Unit) exRest (⟨4, exRest.1.data, exRest.1.default⟩, ()) :=
  ⟨rfl, rfl, trivial⟩

/-- The lanewise sum of two vectors. -/
abbrev exAdd : Vector (BitVec 8) 4 × Vector (BitVec 8) 4 × Unit → Vector (BitVec 8) 4 :=
  fun v => Vector.zipWith (· + ·) v.1 v.2.1

theorem exAdd_lanes (v : Vector (BitVec 8 × BitVec 8 × Unit) 4) :
    exAdd (packRow (SIMDIter (Slice (BitVec 8) 4) (BitVec 8) 4 × Unit) v) = v.map fun t => t.1 + t.2.1 := by
  apply Vector.ext
  intro i hi
  simp [exAdd, packRow, LawfulRest.pack]

theorem exSumOp : SumOp (n := 8) (w := 4) false (sumFallback release64 .u) :=
  (C71_versions release64 rfl exI8x16 exI8x32 exUp).1 8 4 .u

example := C21_zip_general exDriver (by decide) exRep (by decide) 9 exAdd _ exAdd_lanes (by decide) (by decide) (by decide)
  (by decide)
example := C83_zip_fill exDriver (by decide) exRep (by decide) 9 exAdd _ exAdd_lanes (by decide) (by decide) (by decide)
  (by decide) (List.replicate 7 0) (by decide)
example := C82_zip_reduce_sum exSumOp exDriver (by decide) exRep (by decide) 9 exAdd _ exAdd_lanes (by decide)
example := C82_zip_map_reduce_sum exSumOp exDriver (by decide) exRep (by decide) 9 exAdd _ exAdd_lanes (by decide)
  (by decide) (by decide)
example := C22_zip_rejects_partial release64 2 (fun k => if k = 1 then [(1 : BitVec 8)] else [1, 2, 3, 4, 5])
  (fun _ => Vector.replicate 4 0) (by decide) (fun k => by split <;> decide) 1 (by decide) (by decide)
  (by decide)
example := C23_width_out_of_bounds (w := 4) (w' := 2) release64 3 (List.replicate 12 (1 : BitVec 8))
  (List.replicate 6 (1 : BitVec 8)) (Vector.replicate 4 0) (Vector.replicate 2 0) (by decide) (by decide) (by decide)
  (by decide) (by decide) (by decide)
example := C56_zip_built release64 (exFirst 0) _ _ exSame
example := C56_moved_next release64 (exFirst 0) _ _ exSame
example := C56_moved_end release64 (exFirst 4) _ _ exSame
example := C56_moved_rest release64 (exFirst 0) _ _ exSame
example := C27_stride_end_safe (w := 2) release64 [(1 : BitVec 8), 2, 3, 4, 5, 6] (s := 2) (k := 1) (by decide)
  (Vector.replicate 2 0) 1 (by decide) (by decide) (by decide) (by decide +kernel)
example := C34_advance_at exEverywhere (simdIter_moves _ _ _) (by decide) 0 1 (by decide) 1 (by decide) (by decide)
example := C34_map_advance_at exEverywhere (simdIter_moves _ _ _) (by decide) 0 1 (by decide) ()
  (fun _ v => ok (v, ())) 1 (by decide) (by decide)
example := C34_zip_advance_at exEverywhere (simdIter_moves _ _ _) (by decide) exRep (by decide) 0 1 (by decide) 1
  (by decide) (by decide)
example := C75_next_overflow release64 [(1 : BitVec 8), 2, 3, 4, 5] (Vector.replicate 4 0) (2 ^ 64 - 1) (by decide)
  (by decide) (by decide)
example := C76_complete release64 [(1 : BitVec 8), 2, 3, 4, 5] (Vector.replicate 4 0) (by decide)
  [.next, .end_] _ _ _ (by decide) rfl rfl
example := C89_two_complete release64 [(1 : BitVec 8), 2, 3, 4, 5] [(1 : BitVec 8), 2, 3, 4, 5] (Vector.replicate 4 0)
  (Vector.replicate 4 0) 0 rfl (by decide) (by decide) [.next, .end_] _ _ _ (by decide) rfl rfl
example := C110_stride_zip_one (α := BitVec 8) (· + ·) 0 4 release64 9 [1, 2, 3, 4] (by decide) (by decide) (by decide)
  (by decide) (by decide) (by decide) (by decide)

/-- The bytes 1 to 5. -/
abbrev exBytes : List (BitVec 8) := [1, 2, 3, 4, 5]

/-- Zeros. -/
abbrev exZeros : Vector (BitVec 8) 4 := Vector.replicate 4 0

/-- A closure which panics when it is called for the second time. -/
abbrev exSecond {V W : Type} (g : V → W) : FnMut Nat V W := fun st v => if st = 1 then panic else ok (g v, st + 1)

/-- The same as the closure of a reduction. -/
abbrev exSecond2 {V : Type} : Nat → Nat → V → Res (Nat × Nat) :=
  fun st a _ => if st = 1 then panic else ok (a + 1, st + 1)

theorem exDriverBytes : Driver release64 exIter exBytes exZeros (fun p => p + 4 ≤ 5) :=
  simdIter_driver (represents_slice _ _) _ (by decide) (by decide)

example := C117_fill_driver exDriverBytes 9 0 1 (exSecond id) [#v[1, 2, 3, 4]] 1 #v[0, 0, 0, 5] (List.replicate 6 7)
  (by decide) (by decide) (by decide) (by decide) (by decide) (by decide) (by decide +kernel) rfl rfl
example := C117_fill_panic release64 9 exBytes exZeros 0 1 (exSecond id) [#v[1, 2, 3, 4]] 1 #v[0, 0, 0, 5]
  (List.replicate 6 7) (by decide) (by decide) (by decide) (by decide) (by decide) (by decide) (by decide)
  (by decide +kernel) rfl rfl
example := C117_fill_panic_zip exDriver (by decide) exRep (by decide) 9 0 1 (exSecond exAdd) [#v[7, 9, 11, 13]] 1
  (#v[0, 0, 0, 5], #v[0, 0, 0, 10], ()) (List.replicate 6 7) (by decide) (by decide) (by decide) (by decide)
  (by decide) (by decide +kernel) (by decide +kernel) rfl
example := C117_reduce_driver exDriverBytes 9 5 6 0 1 exSecond2 1 #v[0, 0, 0, 5] (by decide) (by decide)
  (by decide +kernel) rfl rfl
example := C117_reduce_panic release64 9 exBytes exZeros 5 6 0 1 exSecond2 1 #v[0, 0, 0, 5] (by decide) (by decide)
  (by decide) (by decide +kernel) rfl rfl
example := C117_reduce_panic_zip exDriver (by decide) exRep (by decide) 9 5 6 0 1 exSecond2 1
  (#v[0, 0, 0, 5], #v[0, 0, 0, 10], ()) (by decide) (by decide +kernel) rfl rfl
example := C117_fill_nested exDriverBytes 9 0 1 (exSecond id) [#v[1, 2, 3, 4]] 1 #v[0, 0, 0, 5] () ()
  (fun _ v => ok (v, ())) [#v[1, 2, 3, 4]] (List.replicate 6 7) (by decide) (by decide) (by decide) (by decide)
  (by decide) (by decide) (by decide +kernel) rfl rfl rfl
example := C117_fill_zip_first exDriverBytes 9 exRest 0 1 (exSecond id) [#v[1, 2, 3, 4]] [(#v[6, 7, 8, 9], ())] 1
  #v[0, 0, 0, 5] () () (fun _ v => ok (exAdd v, ())) [#v[7, 9, 11, 13]] (List.replicate 6 7) (by decide) (by decide)
  (by decide) (by decide) (by decide) (by decide) (by decide +kernel) rfl rfl rfl
  (fun j hj => by
    obtain rfl : j = 0 := by simpa using hj
    rfl) (by decide +kernel)
example := C11_consumed_panic (w := 4) release64 9 exBytes exZeros 1 (exSecond id) 2 (by decide) (by decide) (by decide)
  (by decide) (by decide) (by decide) rfl
example := C12_for_each_panic release64 9 exBytes exZeros 0 1 (exSecond id) [#v[1, 2, 3, 4]] 1 #v[0, 0, 0, 5] (by decide)
  (by decide) (by decide) (by decide +kernel) rfl rfl

/-! ### Passes -/

theorem exRuns : Runs release64 (simdIter exBytes exZeros) [#v[1, 2, 3, 4]] (ok (iterAt exBytes exZeros 4)) :=
  .step rfl (.done rfl)

theorem exEnd : SIMDIterator.end_ release64 (iterAt exBytes exZeros 4) =
    ok (some (#v[0, 0, 0, 5], 3), iterAt exBytes exZeros 5) := rfl

example := C15_after_pass release64 exBytes exZeros (by decide) (by decide) _ _ _ _ exRuns exEnd
example := C135_fill release64 9 _ _ _ _ _ (List.replicate 6 0) exRuns exEnd (by decide) (by decide) (by decide)
  (by rintro p n h; cases h; decide)
example := C135_fill_ub release64 9 _ _ _ _ _ (List.replicate 6 0) exRuns exEnd (by decide) (by decide) (by decide)
  (by rintro p n h; cases h; decide)
example := C135_collect release64 9 _ _ _ _ _ 1 8 exRuns exEnd rfl rfl (by decide) (by decide) (by decide)
  (by rintro p n h; cases h; decide)

theorem exYields : Yields release64 (simdIter exBytes exZeros) [#v[1, 2, 3, 4]] := .cons rfl (.nil _)

example := C135_fill_endless release64 9 _ _ [1, 2, 3] exYields (by decide) (by decide) (by decide)

/-- The bytes 1 to 8, four at a time. -/
theorem exRuns2 : Runs release64 (simdIter [1, 2, 3, 4, 5, 6, 7, 8] exZeros) [#v[1, 2, 3, 4], #v[5, 6, 7, 8]]
    (ok (iterAt [1, 2, 3, 4, 5, 6, 7, 8] exZeros 8)) := .step rfl (.step rfl (.done rfl))

example := C20_chunk_overwritten release64 rfl exRuns2 1 (Vector.replicate 8 exZeros) (by decide) (by decide) (by decide)
example := C20_chunk_until_next_partial release64 rfl exRuns2 2 (Vector.replicate 8 exZeros) (by decide) (by decide)
  (by decide)
example := C18_unpack_any release64 exIter exBytes (fun p => represents_iter (represents_slice _ _) p _)
  (fun _ _ => rfl) (fun p hp => by
    have : p < 5 := hp
    have h : p + 1 < 18446744073709551616 := by omega
    simp [SIMDIterable.advance, SIMDIter.advance, uadd, exIter, release64, h])
  3 1 (by decide)
example := C18_stride_pack (w := 2) (c := release64) (represents_slice _ [(1 : BitVec 8), 2, 3, 4, 5, 6]) (s := 2) (k := 1) (by decide)
  (Vector.replicate 2 0) (by decide) (by decide) 1 1 (by decide)
example := C86_chunks (w := 4) release64 9 2 [(1 : BitVec 8), 2, 3, 4, 5, 6, 7, 8] exZeros
  (separates_two (C48_polyfill destrideRows[9] (by simp))) (by decide) (by decide) (by decide) (by decide) (by decide) (by decide)

theorem exDeinterleaved : ∃ xs : List (List (Vector (BitVec 8) 4)), Deinterleaved 2 [1, 2, 3, 4, 5, 6, 7, 8] xs :=
  ⟨[[#v[1, 3, 5, 7], #v[2, 4, 6, 8]]], by decide, by decide, fun q k j hq hk hj => by
    obtain rfl : q = 0 := by simpa using hq
    have hk : k < 2 := hk
    match k, hk, j, hj with
    | 0, _, 0, _ | 0, _, 1, _ | 0, _, 2, _ | 0, _, 3, _ | 1, _, 0, _ | 1, _, 1, _ | 1, _, 2, _ | 1, _, 3, _ => rfl⟩

example := exDeinterleaved.choose_spec.elim fun _ _ => C86_unique exDeinterleaved.choose_spec exDeinterleaved.choose_spec
example := C86_incomplete (w := 4) release64 9 2 [(1 : BitVec 8), 2, 3, 4] exZeros
  (f := destrideTwoBody (destrideTwoPolyfill destrideRows[9].two))
  (separates_two (C48_polyfill destrideRows[9] (by simp))).ok (destrideTwoBody_short _) (by decide) (by decide) (by decide)
  (by decide) (by decide) (by decide)

/-! ### Iterators of iterators -/

example := C134_step_ub release64 liar_safe (anyAdapter (⟨3, 1⟩ : Liar) (#v[0, 0] : Vector (BitVec 8) 2)) (by decide)
  (by decide) (by decide) (by decide) .end_
example := C134_trace_partial release64 liar_safe (by decide) (by decide) [.next]
  (anyAdapter (⟨3, 1⟩ : Liar) (#v[0, 0] : Vector (BitVec 8) 2)) _ _ (by decide) (by decide) rfl

theorem exLiarDebug : SafeScalars debug64 (fun s : Liar => s.says < 2 ^ 64) where
  next := liar_safe.next
  closed := liar_safe.closed
  len := liar_safe.len
  usize := liar_safe.usize

example := C134_debug_safe debug64 exLiarDebug (by decide) (by decide) rfl [.next, .end_]
  (anyAdapter (⟨3, 1⟩ : Liar) (#v[0, 0] : Vector (BitVec 8) 2)) (by decide) (by decide)

/-! ### Collections of users -/

example := C136_contract (agrees_slice (w := 4) release64 exBytes)
example := C136_calls (agrees_slice (w := 4) release64 exBytes) 0 exZeros [.next, .end_]
example := C136_like_slice_partial (agrees_slice (w := 4) debug64 exBytes) 0 exZeros [.next, .end_] (by decide)
  (by decide) (.inl rfl)
example := C136_zip_do_each (c := release64) (rows := [((1 : BitVec 8), (6 : BitVec 8)), (2, 7), (3, 8)])
  (represents_slice _ _) (represents_slice _ _) exZeros exZeros 9 () (fun _ _ => ok ((), ())) (by decide) (by decide)
  (by decide)
example := C136_consumers (B := Nat) (σ := Unit)
  (iterBelow_iter (C136_contract (agrees_slice (w := 4) release64 exBytes)))
  (iterRel_mk (p := 0) (d := exZeros) ⟨rfl, rfl⟩)
example := C136_views (w' := 4) (σ := Unit) (β := BitVec 8) (C136_contract (agrees_slice (w := 4) release64 exBytes))

/-! ### Reductions and repeated passes -/

example := C141_equal release64 9 5 (3 : BitVec 8) exZeros exZeros (· + ·) (fun a j hj => by simp) (by decide) (by decide)
  (by decide)
example := C141_equal_iff release64 9 5 (3 : BitVec 8) exZeros exZeros (· + ·) (fun a j hj => by simp)
  (fun a h => by simp at h) (by decide) (by decide) (by decide)
example := C141_lane_at exEverywhere 9 (Vector.replicate 4 (1 : BitVec 8)) (· + ·) 1 (by decide) (by decide) 1 (by decide) (by decide)
  (by decide) (by decide)
example := C142_reduce exDriverBytes 9 0 0 () (fun _ a _ => ok (a + 1, ())) (by decide) (by decide) (by decide) (by decide)
example := C142_zip_again exDriver (by decide) exRep (by decide) 9 9 () () () (fun _ _ => ok ((), ()))
  (fun _ _ => ok ((), ())) ⟨exFirst 5, exRest⟩ (by decide) rfl
example := C130_lanewise_iff exDriverBytes 9 (fun x => x + 1) (by decide) (by decide) (by decide) (by decide)
example := C130_false_narrow (w := 4) release64 9 (1 : BitVec 16) (Vector.replicate 4 0) (fun x => x.truncate 8) (by decide)
  (by decide) (by decide) (by decide) (by decide)
example := C147_many_ub release64 8 4 [(4, 2)] (by decide +kernel)
example := C147_wider (w := 2) (w' := 4) 6 12 (by decide) (by decide)

theorem exDelivers : Delivers (SIMDIterable.next release64) (simdIter exBytes exZeros) [#v[1, 2, 3, 4]]
    (iterAt exBytes exZeros 4) := runs_delivers exRuns rfl

example := C148_count exDelivers 9 0 (by decide)
example := C148_collect exDelivers 9 [] (by decide)
example := C148_last exDelivers 9 none (by decide)
example := C148_nth exDelivers 0

theorem exSmallTail : SmallTail release64 (SIMDIter (Slice (BitVec 8) 4) (BitVec 8) 4) 1 := fun h => nomatch h

theorem exZSmallTail : ZSmallTail release64 (Zip (SIMDIter (Slice (BitVec 8) 4) (BitVec 8) 4)
    (SIMDIter (Slice (BitVec 8) 4) (BitVec 8) 4 × Unit)) := fun h => nomatch h

example := C149_reduce (β := BitVec 8) (w' := 4) exSmallTail (by decide) 9 (exIter 0) 0 () () (fun _ v => ok (v, ()))
  (fun _ a _ => ok (a + 1, ()))
example := C149_do_each (β := BitVec 8) (w' := 4) exSmallTail (by decide) 9 (exIter 0) () () (fun _ v => ok (v, ()))
  (fun _ _ => ok ((), ()))
example := C149_zip_reduce (β := BitVec 8) (w' := 4) exZSmallTail (by decide) 9 ⟨exFirst 0, exRest⟩ 0 () ()
  (fun _ v => ok (v.1, ())) (fun _ a _ => ok (a + 1, ()))
example := C149_zip_do_each (β := BitVec 8) (w' := 4) exZSmallTail (by decide) 9 ⟨exFirst 0, exRest⟩ () ()
  (fun _ v => ok (v.1, ())) (fun _ _ => ok ((), ()))

/-! ### The order of zips -/

example := C150_swap_reduce_partial exBytes exBytes [(), (), (), (), ()] exZeros exZeros (Vector.replicate 4 ())
  (r := ()) (c := release64) trivial rfl rfl (by decide) (by decide) 9 0 () (fun _ a _ => ok (a + 1, ())) (by decide)
example := C150_swap_do_each_partial exBytes exBytes [(), (), (), (), ()] exZeros exZeros (Vector.replicate 4 ())
  (r := ()) (c := release64) trivial rfl rfl (by decide) (by decide) 9 () (fun _ _ => ok ((), ())) (by decide)
example := C150_swap_collect_partial exBytes exBytes [(), (), (), (), ()] exZeros exZeros (Vector.replicate 4 ())
  (r := ()) (c := release64) trivial rfl rfl (by decide) (by decide) (by decide) 9 () (fun _ v => ok (v.1, ())) (by decide) (by decide)
  (by decide) (by decide) (by decide) (by decide)

end Faster
