import Verif.Props.EndToEnd
import Verif.Props.FloatUse
/-!
C70, C73 for the remaining operations and for targets without SIMD: whole programs with float
magnitudes, all roundings, roots, `swap_bytes`, saturating subtraction, equality masks and float
`min`/`max`, with the instruction and with the fallback.
-/
namespace Faster
open Res SIMDSized SIMDIterable SIMDIterator

/-- `data.simd_iter(d).simd_map(F).scalar_collect()` returns one element per element of the slice,
related to it by `R`, for every slice and default; and `simd_for_each(F)` leaves such elements in
the slice. -/
def MapsSlices {n w : Nat} (R : BitVec n → BitVec n → Prop)
    (F : Vector (BitVec n) w → Res (Vector (BitVec n) w)) : Prop :=
  ∀ (c : Cfg) (fuel : Nat) (data : List (BitVec n)) (d : Vector (BitVec n) w), 64 < c.usize →
    data.length + w < c.usize → data.length / w < fuel →
    (∃ out : List (BitVec n), (do
      let (_, out) ← scalarCollect c fuel (simdMap (simdIter data d) () (useOp F))
      ok out) = ok (out.map some) ∧ Pointwise R data out) ∧
    ∃ out : List (BitVec n), simdForEach c fuel () (useOp F) (simdIter data d) =
      (ok (), ⟨data.length, ⟨out⟩, d⟩) ∧ Pointwise R data out

/-- Two slices of one length zipped, mapped with `F` and collected: one element per index, related
by `R` to the two elements there. -/
def ZipsSlices {n w : Nat} (R : BitVec n → BitVec n → BitVec n → Prop)
    (F : Vector (BitVec n) w → Vector (BitVec n) w → Res (Vector (BitVec n) w)) : Prop :=
  ∀ (c : Cfg) (fuel : Nat) (xs ys : List (BitVec n)) (dx dy : Vector (BitVec n) w),
    xs.length = ys.length → 64 < c.usize → xs.length + w < c.usize → xs.length / w < fuel →
    ∃ out : List (BitVec n), (do
      let z ← zip c (simdIter xs dx) (simdIter ys dy, ())
      let (_, out) ← scalarCollect c fuel (zsimdMap z () (useOp2 F))
      ok out) = ok (out.map some) ∧ out.length = xs.length ∧
      ∀ i (h1 : i < xs.length) (h2 : i < ys.length) (h3 : i < out.length), R xs[i] ys[i] out[i]

/-- Every lane-wise operation of a vector of at most 64 bytes maps slices. -/
theorem mapsSlices_of {s w : Nat} {R : BitVec (8 * s) → BitVec (8 * s) → Prop}
    {F : Vector (BitVec (8 * s)) w → Res (Vector (BitVec (8 * s)) w)}
    (h : 0 < w ∧ 0 < s ∧ w * s ≤ 64) (hF : LaneOp1 R F) : MapsSlices R F := by
  intro c fuel data d hu hlen hfuel
  obtain ⟨hw, h0, hb⟩ := h
  exact ⟨C70_collect hF c fuel data d hw (by rw [size_bits]; exact h0) rfl hlen
    (by rw [size_bits]; omega) hfuel, C70_for_each hF c fuel data d hw hlen hfuel⟩

theorem zipsSlices_of {s w : Nat} {R : BitVec (8 * s) → BitVec (8 * s) → BitVec (8 * s) → Prop}
    {F : Vector (BitVec (8 * s)) w → Vector (BitVec (8 * s)) w → Res (Vector (BitVec (8 * s)) w)}
    (h : 0 < w ∧ 0 < s ∧ w * s ≤ 64) (hF : LaneOp2 R F) : ZipsSlices R F := by
  intro c fuel xs ys dx dy hlen hu hl hfuel
  obtain ⟨hw, h0, hb⟩ := h
  exact C73_zip hF c fuel xs ys dx dy hlen hw hl (by rw [size_bits]; exact h0) rfl
    (by rw [size_bits]; omega) hfuel

theorem absRows_bytes : ∀ r ∈ absRows ++ absRowsUnknown,
    0 < r.width ∧ 0 < r.size ∧ r.width * r.size ≤ 64 := by decide +kernel
theorem roundRows_bytes : ∀ r ∈ roundRows ++ roundRowsUnknown,
    0 < r.width ∧ 0 < r.size ∧ r.width * r.size ≤ 64 := by decide +kernel
theorem sqrtRows_bytes : ∀ r ∈ sqrtRows ++ sqrtRowsUnknown,
    0 < r.width ∧ 0 < r.size ∧ r.width * r.size ≤ 64 := by decide +kernel
theorem swapRows_bytes : ∀ r ∈ swapRows ++ (swapRows512 ++ swapRowsUnknown),
    0 < r.width ∧ 0 < r.size ∧ r.width * r.size ≤ 64 := by decide +kernel
theorem satRows_bytes : ∀ r ∈ satAddRows ++ satAddRowsUnknown ++ (satSubRows ++ satSubRowsUnknown),
    0 < r.width ∧ 0 < r.size ∧ r.width * r.size ≤ 64 := by decide +kernel
theorem cmpRows_bytes : ∀ r ∈ cmpRows ++ cmpRowsUnknown,
    0 < r.width ∧ 0 < r.size ∧ r.width * r.size ≤ 64 := by decide +kernel
theorem eqRows_bytes : ∀ r ∈ eqRows ++ eqRowsUnknown,
    0 < r.width ∧ 0 < r.size ∧ r.width * r.size ≤ 64 := by decide +kernel

/-! ### C70: one argument -/

/-- **C70**, `abs`, every type and target: integers get their magnitude, floats lose exactly the
sign bit. Targets without SIMD have the fallback only. -/
theorem C70_abs_all (r : AbsRow) (opt : Bool)
    (hr : r ∈ absRows ∨ r ∈ absRowsUnknown ∧ opt = false) :
    (r.kind = .i → MapsSlices (fun x y => (y.toNat : Int) = if x.toInt < 0 then -x.toInt else x.toInt)
      (absOf opt r : Vector (BitVec (8 * r.size)) r.width → _)) ∧
    (r.kind = .f → MapsSlices (fun x y => ∀ k, k < 8 * r.size →
        y.getLsbD k = if k = 8 * r.size - 1 then false else x.getLsbD k)
      (absOf opt r : Vector (BitVec (8 * r.size)) r.width → _)) := by
  have hb := absRows_bytes r (List.mem_append.2 (hr.imp id And.left))
  have hr' : r ∈ absRows ∨ r ∈ absRowsUnknown := hr.imp id And.left
  constructor
  · intro hk
    refine mapsSlices_of hb fun v => ?_
    unfold absOf
    split
    · next hm =>
      exact C44_int_optimized r (hr.resolve_right (by rintro ⟨-, h⟩; simp at h)) hk _ hm v
    · exact C44_int_fallback r hr' hk v
  · intro hk
    refine mapsSlices_of hb fun v => ?_
    unfold absOf
    split
    · next hm =>
      exact C44_float_optimized r (hr.resolve_right (by rintro ⟨-, h⟩; simp at h)) hk _ hm v
    · exact C44_float_fallback r hr' hk v

/-- **C70**, `floor`, `ceil`, `trunc` and `round`, every type and target: the exact integer in the
direction of the function; for `round` the nearest one, ties to even with the instruction and away
from zero without. -/
theorem C70_round_all (r : UnRow) :
    (r ∈ roundRows → r.fn ≠ .round → MapsSlices (IsRounded (directed r.fn))
      (roundOptimized r : Vector (BitVec (8 * r.size)) r.width → _)) ∧
    (r ∈ roundRows → r.fn = .round → MapsSlices (IsRounded tiesEven)
      (roundOptimized r : Vector (BitVec (8 * r.size)) r.width → _)) ∧
    (r ∈ roundRows ∨ r ∈ roundRowsUnknown → r.fn ≠ .round → MapsSlices (IsRounded (directed r.fn))
      (roundFallback r : Vector (BitVec (8 * r.size)) r.width → _)) ∧
    (r ∈ roundRows ∨ r ∈ roundRowsUnknown → r.fn = .round → MapsSlices (IsRounded tiesAway)
      (roundFallback r : Vector (BitVec (8 * r.size)) r.width → _)) := by
  have hb : r ∈ roundRows ∨ r ∈ roundRowsUnknown → _ := fun hr => roundRows_bytes r (List.mem_append.2 hr)
  exact ⟨fun hr hf => mapsSlices_of (hb (.inl hr)) fun v => C67_optimized r hr hf v,
    fun hr hf => mapsSlices_of (hb (.inl hr)) fun v => C68_optimized r hr hf v,
    fun hr hf => mapsSlices_of (hb hr) fun v => C67_fallback r hr hf v,
    fun hr hf => mapsSlices_of (hb hr) fun v => C68_fallback r hr hf v⟩

/-- **C70**, `sqrt`, every type, target and version: the correctly rounded root of every element. -/
theorem C70_sqrt (opt : Bool) (r : UnRow) (hr : r ∈ sqrtRows ++ sqrtRowsUnknown) :
    MapsSlices IsRoot (sqrtOf (n := 8 * r.size) opt r) :=
  mapsSlices_of (sqrtRows_bytes r hr) fun v => C69_sqrt opt r hr v

/-- **C70**, `swap_bytes`, every type and target: the bytes of every element reversed. -/
theorem C70_swap_bytes_all (r : ShuffleRow) :
    (r ∈ swapRows → MapsSlices (fun x y => ∀ t, t < r.size → byte y t = byte x (r.size - 1 - t))
      fun v : Vector (BitVec (8 * r.size)) r.width => ok (swapBytesShuffle r.ctl v)) ∧
    (r ∈ swapRows ++ (swapRows512 ++ swapRowsUnknown) →
      MapsSlices (fun x y => ∀ t, t < r.size → byte y t = byte x (r.size - 1 - t))
      (swapBytesFallback r.idx : Vector (BitVec (8 * r.size)) r.width → _)) := by
  constructor
  · intro hr
    refine mapsSlices_of (swapRows_bytes r (List.mem_append_left _ hr)) fun v => ?_
    exact ⟨v.map swapBytesScalar, by rw [(C38_swap_bytes.1 r hr v).2],
      fun i hi t ht => C38_bytes rfl v hi ht⟩
  · intro hr
    refine mapsSlices_of (swapRows_bytes r hr) fun v => ?_
    refine ⟨v.map swapBytesScalar, ?_, fun i hi t ht => C38_bytes rfl v hi ht⟩
    rcases List.mem_append.1 hr with hr | hr
    · exact (C38_swap_bytes.1 r hr v).1
    · exact C38_swap_bytes.2 r hr v

/-! ### C73: two arguments -/

/-- **C73**, `saturating_add` and `saturating_sub`, every type, target and version: the exact
result, moved to the nearest value of the type. -/
theorem C73_saturating_all (c' : Cfg) (r : BinRow) (opt : Bool) :
    (r ∈ satAddRows ∨ r ∈ satAddRowsUnknown ∧ opt = false →
      ZipsSlices (fun x y z => num r.kind.signed z = nearest r.kind.signed (8 * r.size)
        (num r.kind.signed x + num r.kind.signed y))
      (cmpOf (n := 8 * r.size) (w := r.width) c' opt r)) ∧
    (r ∈ satSubRows ∨ r ∈ satSubRowsUnknown ∧ opt = false →
      ZipsSlices (fun x y z => num r.kind.signed z = nearest r.kind.signed (8 * r.size)
        (num r.kind.signed x - num r.kind.signed y))
      (cmpOf (n := 8 * r.size) (w := r.width) c' opt r)) := by
  constructor <;> intro hr
  · refine zipsSlices_of (satRows_bytes r (List.mem_append_left _ (List.mem_append.2 (hr.imp id And.left))))
      fun a b => ?_
    cases opt
    · exact C39_add_fallback c' r (hr.imp id And.left) a b
    · exact C39_add_optimized r (hr.resolve_right (by simp)) a b
  · refine zipsSlices_of (satRows_bytes r (List.mem_append_right _ (List.mem_append.2 (hr.imp id And.left))))
      fun a b => ?_
    cases opt
    · exact C39_sub_fallback c' r (hr.imp id And.left) a b
    · exact C39_sub_optimized r (hr.resolve_right (by simp)) a b

/-- **C73**, `min` and `max`, every type and target. For floats the instruction agrees with the
specification unless only the second element is NaN (see C66). -/
theorem C73_min_max_all (c' : Cfg) (r : BinRow) (opt : Bool)
    (hr : r ∈ cmpRows ∨ r ∈ cmpRowsUnknown ∧ opt = false) :
    (r.kind ≠ .f → ZipsSlices (IsExtreme r.kind.signed (r.fn == .max))
      (cmpOf (n := 8 * r.size) (w := r.width) c' opt r)) ∧
    (r.kind = .f → ZipsSlices (fun x y z => (IsFloatExtreme (r.fn == .max) x y z ↔
        ¬ (opt = true ∧ ieee x ≠ .nan ∧ ieee y = .nan)) ∧
        (opt = true → ieee x = .nan ∨ ieee y = .nan → z = y))
      (cmpOf (n := 8 * r.size) (w := r.width) c' opt r)) := by
  have hb := cmpRows_bytes r (List.mem_append.2 (hr.imp id And.left))
  constructor <;> intro hk
  · refine zipsSlices_of hb fun a b => ?_
    cases opt
    · exact C51_fallback c' r (hr.imp id And.left) hk a b
    · exact C51_optimized r (hr.resolve_right (by simp)) hk a b
  · refine zipsSlices_of hb fun a b => ?_
    cases opt
    · obtain ⟨v, h1, h2⟩ := C66_fallback c' r (hr.imp id And.left) hk a b
      exact ⟨v, h1, fun i hi => ⟨by simpa using h2 i hi, by simp⟩⟩
    · obtain ⟨v, h1, h2⟩ := C66_optimized_partial r (hr.resolve_right (by simp)) hk a b
      exact ⟨v, h1, fun i hi => ⟨by simpa using (h2 i hi).1, fun _ => (h2 i hi).2⟩⟩

/-- **C73**, `eq_mask`, every type, target and version: all bits where the elements are equal
(floats: as numbers), no bits elsewhere. -/
theorem C73_eq_mask (c' : Cfg) (r : BinRow) (opt : Bool)
    (hr : r ∈ eqRows ∨ r ∈ eqRowsUnknown ∧ opt = false) :
    ZipsSlices (fun x y z =>
        ((if r.kind = .f then ieee x ≠ .nan ∧ ieee x = ieee y else x = y) → z = BitVec.allOnes _) ∧
        (¬ (if r.kind = .f then ieee x ≠ .nan ∧ ieee x = ieee y else x = y) → z = 0))
      (cmpOf (n := 8 * r.size) (w := r.width) c' opt r) := by
  refine zipsSlices_of (eqRows_bytes r (List.mem_append.2 (hr.imp id And.left))) fun a b => ?_
  have hones : ∀ z : BitVec (8 * r.size), (∀ k, k < 8 * r.size → z.getLsbD k = true) →
      z = BitVec.allOnes _ := fun z h => BitVec.eq_of_getLsbD_eq fun k hk => by simp [h k hk, hk]
  have hzero : ∀ z : BitVec (8 * r.size), (∀ k, k < 8 * r.size → z.getLsbD k = false) → z = 0 :=
    fun z h => BitVec.eq_of_getLsbD_eq fun k hk => by simp [h k hk]
  by_cases hk : r.kind = .f
  · have key : ∃ v, cmpOf c' opt r a b = ok v ∧ IsFloatEqMask a b v := by
      cases opt
      · exact C65_fallback c' r (hr.imp id And.left) hk a b
      · exact C65_optimized r (hr.resolve_right (by simp)) hk a b
    obtain ⟨v, h1, h2⟩ := key
    refine ⟨v, h1, fun i hi => ?_⟩
    rw [if_pos hk]
    exact ⟨fun h => hones _ ((h2 i hi).1 h), fun h => hzero _ ((h2 i hi).2 h)⟩
  · have key : ∃ v, cmpOf c' opt r a b = ok v ∧ IsEqMask a b v := by
      cases opt
      · exact C50_fallback c' r (hr.imp id And.left) hk a b
      · exact C50_optimized r (hr.resolve_right (by simp)) hk a b
    obtain ⟨v, h1, h2⟩ := key
    refine ⟨v, h1, fun i hi => ?_⟩
    rw [if_neg hk]
    exact ⟨fun h => hones _ ((h2 i hi).1 h), fun h => hzero _ ((h2 i hi).2 h)⟩

/-- There are rows of every sort: floats and integers, both targets. -/
example : (∃ r ∈ absRows, r.kind = .f ∧ r.mm.isSome) ∧ (∃ r ∈ absRowsUnknown, r.kind = .i) ∧
    (∃ r ∈ roundRows, r.fn = .round) ∧ (∃ r ∈ roundRowsUnknown, r.fn = .floor) ∧
    (∃ r ∈ cmpRows, r.kind = .f) ∧ (∃ r ∈ eqRowsUnknown, r.kind = .f) ∧
    satSubRowsUnknown ≠ [] ∧ swapRowsUnknown ≠ [] ∧ sqrtRows ≠ [] := by decide +kernel

/-- A complete program: magnitudes of three floats with a width of two. -/
example : (do
    let (_, out) ← scalarCollect debug64 9 (simdMap (simdIter [0xBF800000#32, 0x3F800000, 0x80000000]
      #v[0#32, 0]) () (useOp (absFallback .f [0, 1])))
    ok out) = ok ([0x3F800000#32, 0x3F800000, 0].map some) := by decide +kernel

end Faster
