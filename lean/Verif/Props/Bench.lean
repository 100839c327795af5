import Verif.Bench
import Verif.Props.FloatError
import Verif.Props.EndToEnd
import Verif.Props.FloatSum
import Verif.Props.ZipLanes
import Verif.Props.FloatCast
import Mathlib.Analysis.Real.Pi.Bounds
/-
benches/intrin.rs and the float pipelines of benches/usage.rs and examples/main.rs
compared with their scalar versions.
-/
namespace Faster
open Res SIMDSized SIMDIterable SIMDIterator

variable {w : Nat}

/-! ### The operations of the crate, lane by lane -/

/-- An operation on vectors of a table row, on vectors of the type the row stands for. -/
def retype {n n' w' : Nat} (hn : n = n') (hw : w = w')
    (F : Vector (BitVec n) w → Res (Vector (BitVec n) w)) :
    Vector (BitVec n') w' → Res (Vector (BitVec n') w') := hn ▸ hw ▸ F

/-- An operation with two operands. -/
def retype2 {n n' w' : Nat} (hn : n = n') (hw : w = w')
    (F : Vector (BitVec n) w → Vector (BitVec n) w → Res (Vector (BitVec n) w)) :
    Vector (BitVec n') w' → Vector (BitVec n') w' → Res (Vector (BitVec n') w') := hn ▸ hw ▸ F

theorem retype2_self {n n' w' : Nat} {hn : n = n'} {hw : w = w'}
    {F : Vector (BitVec n) w → Vector (BitVec n) w → Res (Vector (BitVec n) w)}
    (h : ∀ v, F v v = ok v) (v : Vector (BitVec n') w') : retype2 hn hw F v v = ok v := by
  subst hn hw
  exact h v

theorem retype_map {n n' w' : Nat} {hn : n = n'} {hw : w = w'}
    {F : Vector (BitVec n) w → Res (Vector (BitVec n) w)} (g : ∀ {k : Nat}, BitVec k → BitVec k)
    (h : ∀ v, F v = ok (v.map g)) (v : Vector (BitVec n') w') : retype hn hw F v = ok (v.map g) := by
  subst hn hw
  exact h v

theorem roundRowsUnknown_mm : ∀ r ∈ roundRowsUnknown, r.mm = .undefined := by decide

theorem roundOf_map (opt : Bool) (r : UnRow) (hr : r ∈ roundRows ++ roundRowsUnknown)
    (d : RoundDir) (hd : r.fn.dir = some d) (hf : opt = true → r.fn ≠ .round)
    (v : Vector (BitVec (8 * r.size)) r.width) : roundOf opt r v = ok (v.map (fround d)) := by
  unfold roundOf
  rcases List.mem_append.1 hr with hr | hr
  · obtain ⟨hi, -, -, h⟩ := roundRows_facts r hr
    split
    · rename_i ho
      have hf := hf (by simp only [Bool.and_eq_true] at ho; exact ho.1)
      rcases h with ⟨h, -⟩ | ⟨h, h'⟩ | ⟨h, h'⟩ | ⟨h, h'⟩
      · exact absurd h hf
      all_goals
        rw [h] at hd
        cases hd
        exact roundOptimized_eq h' v
    · exact roundFallback_eq hd hi v
  · have hi := (roundRowsUnknown_facts r hr).1
    rw [roundRowsUnknown_mm r hr]
    simpa using roundFallback_eq hd hi v

theorem sqrtOf_map (opt : Bool) (r : UnRow) (hr : r ∈ sqrtRows ++ sqrtRowsUnknown) {n : Nat}
    (v : Vector (BitVec n) r.width) : sqrtOf opt r v = ok (v.map fsqrt) := by
  obtain ⟨o, h1, h2⟩ := (C69_fallback fsqrt frecip).1 r hr v
  have : o = v.map fsqrt := by
    apply Vector.ext
    intro i hi
    rw [h2 i hi, Vector.getElem_map]
  rw [this] at h1
  unfold sqrtOf
  split <;> first | rfl | exact h1

theorem rsqrtFallback_map (r : UnRow) (hr : r ∈ rsqrtRows ++ rsqrtRowsUnknown) {n : Nat}
    (v : Vector (BitVec n) r.width) :
    rootFallback fsqrt frecip r v = ok (v.map fun x => frecip (fsqrt x)) := by
  obtain ⟨o, h1, h2⟩ := (C69_fallback fsqrt frecip).2.2 r hr v
  rw [h1]
  congr 1
  apply Vector.ext
  intro i hi
  rw [h2 i hi, Vector.getElem_map]

theorem recipFallback_map (r : UnRow) (hr : r ∈ recipRows ++ recipRowsUnknown) {n : Nat}
    (v : Vector (BitVec n) r.width) : rootFallback fsqrt frecip r v = ok (v.map frecip) := by
  obtain ⟨o, h1, h2⟩ := (C69_fallback fsqrt frecip).2.1 r hr v
  rw [h1]
  congr 1
  apply Vector.ext
  intro i hi
  rw [h2 i hi, Vector.getElem_map]

theorem absRows_idx : ∀ r ∈ absRows ++ absRowsUnknown, r.idx = List.range r.width := by
  decide +kernel

theorem absOf_map (opt : Bool) (r : AbsRow) (hr : r ∈ absRows ++ absRowsUnknown) (hk : r.kind = .f)
    (v : Vector (BitVec (8 * r.size)) r.width) : absOf opt r v = ok (v.map fabsScalar) := by
  have h : absFallback r.kind r.idx v = ok (v.map fabsScalar) := by
    rw [absFallback_ok r.kind (absRows_idx r hr) v]
    simp only [hk, if_true]
  unfold absOf
  split
  · rename_i mm hm
    rcases List.mem_append.1 hr with hr | hr
    · rw [C44_agree r hr mm hm, h]
    · rw [absRowsUnknown_mm r hr] at hm
      exact absurd hm (by simp)
  · exact h

theorem cmpRowsUnknown_mm : ∀ r ∈ cmpRowsUnknown, r.mm = .undefined := by decide

/-- The smaller and the larger of two equal vectors is that vector, bit for bit. -/
theorem fcmpOf_self (opt : Bool) (c : Cfg) (r : BinRow) (hr : r ∈ cmpRows ++ cmpRowsUnknown)
    (hk : r.kind = .f) (v : Vector (BitVec (8 * r.size)) r.width) : fcmpOf opt c r v v = ok v := by
  have fallback (hi : r.idx = List.range r.width) (hf : r.fn = .min ∨ r.fn = .max) :
      binaryFallback (r.fn.eval c r.kind) r.idx v v = ok v := by
    refine binaryFallback_ok hi _ _ _ fun i hi => ?_
    rcases hf with hf | hf <;> rw [hf, hk] <;> simp [Fn.eval, fminScalar, fmaxScalar]
  unfold fcmpOf cmpOf
  rcases List.mem_append.1 hr with hr | hr
  · obtain ⟨hi, h0, h⟩ := cmpRows_float r hr hk
    split
    · rcases h with ⟨-, h⟩ | ⟨-, h⟩ <;> rw [binaryInstr_eq h rfl rfl (show 0 < 8 * r.size by omega)] <;> congr 1 <;>
        apply Vector.ext <;> intro i hi <;> simp [X86.lanewise, LaneOp.eval, X86.minF, X86.maxF]
    · exact fallback hi (h.imp And.left And.left)
  · obtain ⟨hi, h0, h⟩ := cmpRowsUnknown_float r hr hk
    rw [cmpRowsUnknown_mm r hr]
    simpa using fallback hi h

/-! ### C105: benches/intrin.rs -/

theorem intrin_map {F : Vector (BitVec 32) w → Res (Vector (BitVec 32) w)}
    {g : BitVec 32 → BitVec 32} (hF : ∀ v, F v = ok (v.map g)) (c : Cfg) (fuel : Nat)
    (data : List (BitVec 32)) (hw : 0 < w) (hlen : data.length + w < c.usize)
    (hvec : w * 4 < c.usize) (hfuel : data.length / w < fuel) :
    intrinSimd F c fuel data = ok ((data.map g).map some) := by
  have hL : LaneOp1 (fun x y => y = g x) F := fun v => ⟨_, hF v, fun i hi => by simp⟩
  obtain ⟨out, h1, h2⟩ := C70_collect hL c fuel data (Packed.splat 0#32) hw (by decide) rfl hlen
    (by simpa [Packable.size] using hvec) hfuel
  rw [pointwise_map h2] at h1
  exact h1

/-- **C105**, `ceil`, `floor`, `trunc` in every version, and `round` without the
instruction: the same list as the scalar iterator, for any slice. -/
theorem C105_round (opt : Bool) (r : UnRow) (hr : r ∈ roundRows ++ roundRowsUnknown)
    (hs : 8 * r.size = 32) (d : RoundDir) (hd : r.fn.dir = some d)
    (hf : opt = true → r.fn ≠ .round) (c : Cfg) (fuel : Nat) (data : List (BitVec 32))
    (hw : 0 < r.width) (hlen : data.length + r.width < c.usize)
    (hvec : r.width * 4 < c.usize) (hfuel : data.length / r.width < fuel) :
    intrinSimd (retype hs rfl (roundOf opt r)) c fuel data =
      ok ((intrinScalar (fround d) data).map some) :=
  intrin_map (retype_map (fround d) (roundOf_map opt r hr d hd hf)) c fuel data hw hlen hvec hfuel

/-- **C105**, `abs` in every version. -/
theorem C105_abs (opt : Bool) (r : AbsRow) (hr : r ∈ absRows ++ absRowsUnknown) (hk : r.kind = .f)
    (hs : 8 * r.size = 32) (c : Cfg) (fuel : Nat) (data : List (BitVec 32))
    (hw : 0 < r.width) (hlen : data.length + r.width < c.usize)
    (hvec : r.width * 4 < c.usize) (hfuel : data.length / r.width < fuel) :
    intrinSimd (retype (w := r.width) hs rfl (absOf opt r)) c fuel data =
      ok ((intrinScalar fabsScalar data).map some) :=
  intrin_map (retype_map fabsScalar (absOf_map opt r hr hk)) c fuel data hw hlen hvec hfuel

/-- **C105**, `sqrt` in every version. -/
theorem C105_sqrt (opt : Bool) (r : UnRow) (hr : r ∈ sqrtRows ++ sqrtRowsUnknown) (c : Cfg)
    (fuel : Nat) (data : List (BitVec 32)) (hw : 0 < r.width)
    (hlen : data.length + r.width < c.usize) (hvec : r.width * 4 < c.usize)
    (hfuel : data.length / r.width < fuel) :
    intrinSimd (sqrtOf opt r) c fuel data = ok ((intrinScalar fsqrt data).map some) :=
  intrin_map (sqrtOf_map opt r hr) c fuel data hw hlen hvec hfuel

/-- **C105**, `recip` without the instruction: `1.0 / x`. -/
theorem C105_recip (r : UnRow) (hr : r ∈ recipRows ++ recipRowsUnknown) (c : Cfg)
    (fuel : Nat) (data : List (BitVec 32)) (hw : 0 < r.width)
    (hlen : data.length + r.width < c.usize) (hvec : r.width * 4 < c.usize)
    (hfuel : data.length / r.width < fuel) :
    intrinSimd (rootFallback fsqrt frecip r) c fuel data =
      ok ((intrinScalar (fun x => fdiv 0x3F800000#32 x) data).map some) := by
  have h1 : fofInt 32 1 = 0x3F800000#32 := by decide +kernel
  have := intrin_map (recipFallback_map r hr (n := 32)) c fuel data hw hlen hvec hfuel
  rw [this]
  simp only [intrinScalar, ← h1]
  rfl

/-- **C105**, `min` and `max` of every vector with itself, in every version: the slice
itself, NaN payloads and signs of zeros included. -/
theorem C105_min_max (opt : Bool) (r : BinRow) (hr : r ∈ cmpRows ++ cmpRowsUnknown)
    (hk : r.kind = .f) (hs : 8 * r.size = 32) (c : Cfg) (fuel : Nat) (data : List (BitVec 32))
    (hw : 0 < r.width) (hlen : data.length + r.width < c.usize)
    (hvec : r.width * 4 < c.usize) (hfuel : data.length / r.width < fuel) :
    intrinSimd2 (retype2 hs rfl (fcmpOf opt c r)) c fuel data = ok (data.map some) ∧
    intrinScalar (fun x => fminScalar x x) data = data ∧
    intrinScalar (fun x => fmaxScalar x x) data = data := by
  have h := intrin_map (F := fun v => retype2 hs rfl (fcmpOf opt c r) v v) (g := fun x => x) (fun v => by
    simp [retype2_self (hn := hs) (hw := rfl) (fcmpOf_self opt c r hr hk) v])
    c fuel data hw hlen hvec hfuel
  refine ⟨by rw [intrinSimd2, h]; simp, ?_, ?_⟩ <;>
    simp [intrinScalar, fminScalar, fmaxScalar]

/-- The two roundings of `round` differ exactly at even integers plus a half. -/
theorem fround_even_away (x : BitVec 32) : fround .even x = fround .away x ↔
    ¬ ∃ (a : ℚ) (j : ℕ), ieee x = .fin a ∧ |a| = 2 * j + 1 / 2 := by
  by_cases hx : ieee x = .nan
  · rw [fround_special (.inl rfl) _ x (by simp [hx]), fround_special (.inl rfl) _ x (by simp [hx])]
    simp [hx]
  · have hr : (roundRows[0]'(by decide)) ∈ roundRows := List.getElem_mem _
    have key : ∀ r ∈ roundRows, ∀ (hf : r.fn = .round) (hs : 8 * r.size = 32), 0 < r.width →
        (fround .even x = fround .away x ↔
          ¬ ∃ (a : ℚ) (j : ℕ), ieee x = .fin a ∧ |a| = 2 * j + 1 / 2) := by
      intro r hr hf hs hw
      have h := C68_agree_partial r hr hf (Vector.replicate _ (x.cast hs.symm))
        ((Vector.replicate _ (x.cast hs.symm)).map (fround .even))
        ((Vector.replicate _ (x.cast hs.symm)).map (fround .away))
      obtain ⟨hi, -, -, h'⟩ := roundRows_facts r hr
      rw [hf] at h'
      rw [← not_iff_not, not_not]
      have h := h (roundOptimized_eq (by simpa using h') _) (roundFallback_eq (by rw [hf]; rfl) hi _) 0 hw
      simp only [Vector.getElem_map, Vector.getElem_replicate] at h
      have gen : ∀ {n : Nat} (hs : 32 = n), (ieee (x.cast hs) ≠ .nan → (fround .even (x.cast hs) ≠
          fround .away (x.cast hs) ↔ ∃ (a : ℚ) (j : ℕ), ieee (x.cast hs) = .fin a ∧
            |a| = 2 * j + 1 / 2)) → (¬ fround .even x = fround .away x ↔
            ∃ (a : ℚ) (j : ℕ), ieee x = .fin a ∧ |a| = 2 * j + 1 / 2) := by
        intro n hs h
        subst hs
        exact h hx
      exact gen hs.symm h
    exact key _ hr (by decide) (by decide) (by decide)

/-- **C105**, `round` with the instruction: the same list as the scalar iterator exactly
if no element is an even integer plus a half, up to sign. -/
theorem C105_round_partial (r : UnRow) (hr : r ∈ roundRows) (hs : 8 * r.size = 32)
    (hf : r.fn = .round) (c : Cfg) (fuel : Nat) (data : List (BitVec 32))
    (hw : 0 < r.width) (hlen : data.length + r.width < c.usize)
    (hvec : r.width * 4 < c.usize) (hfuel : data.length / r.width < fuel) :
    intrinSimd (retype hs rfl (roundOf true r)) c fuel data =
        ok ((intrinScalar (fround .away) data).map some) ↔
      ∀ x ∈ data, ¬ ∃ (a : ℚ) (j : ℕ), ieee x = .fin a ∧ |a| = 2 * j + 1 / 2 := by
  obtain ⟨hi, -, -, h'⟩ := roundRows_facts r hr
  have hm : r.mm ≠ .undefined := by
    intro h
    rw [hf, h] at h'
    simp [Instr.rounds] at h'
  have hF : ∀ v, roundOf true r v = ok (v.map (fround .even)) := by
    intro v
    unfold roundOf
    rw [if_pos (by simpa using hm)]
    rw [hf] at h'
    exact roundOptimized_eq (by simpa using h') v
  rw [intrin_map (retype_map (fround .even) hF) c fuel data hw hlen hvec hfuel]
  simp only [intrinScalar, ok.injEq, List.map_map, ← fround_even_away]
  constructor
  · intro h x hx
    have := List.map_inj_left.1 h x hx
    simpa using this
  · intro h
    exact List.map_inj_left.2 fun x hx => by simp [h x hx]

/-- **C105** is false for `round` with the instruction: 0.5 becomes 0.0 instead of 1.0. -/
theorem C105_false (r : UnRow) (hr : r ∈ roundRows) (hs : 8 * r.size = 32) (hf : r.fn = .round) :
    ∃ out, intrinSimd (retype hs rfl (roundOf true r)) debug64 9 [0x3F000000#32] =
      ok out ∧ out = [some 0#32] ∧
      intrinScalar (fround .away) [0x3F000000#32] = [0x3F800000#32] := by
  obtain ⟨hi, -, -, h'⟩ := roundRows_facts r hr
  have hm : r.mm ≠ .undefined := by
    intro h
    rw [hf, h] at h'
    simp [Instr.rounds] at h'
  have hF : ∀ v, roundOf true r v = ok (v.map (fround .even)) := by
    intro v
    unfold roundOf
    rw [if_pos (by simpa using hm)]
    rw [hf] at h'
    exact roundOptimized_eq (by simpa using h') v
  have hw := (show ∀ r ∈ roundRows, 0 < r.width ∧ r.width ≤ 8 by decide) r hr
  have hu : debug64.usize = 2 ^ 64 := rfl
  refine ⟨_, intrin_map (retype_map (fround .even) hF) debug64 9 _ hw.1
    (by simp only [List.length_singleton]; omega) (by omega)
    (Nat.lt_of_le_of_lt (Nat.div_le_self _ _) (by decide)), ?_, ?_⟩ <;> decide +kernel

/-- There are such rows of both widths. -/
example : (∀ fn ∈ [UnFn.round, .ceil, .floor, .trunc], ∀ w ∈ [4, 8], ∃ r ∈ roundRows, r.fn = fn ∧
      8 * r.size = 32 ∧ r.width = w ∧ r.mm ≠ .undefined) ∧
    (∀ w ∈ [4, 8], (∃ r ∈ sqrtRows, 8 * r.size = 32 ∧ r.width = w) ∧
      (∃ r ∈ recipRows, 8 * r.size = 32 ∧ r.width = w) ∧
      (∃ r ∈ absRows, r.kind = .f ∧ 8 * r.size = 32 ∧ r.width = w) ∧
      ∃ r ∈ cmpRows, r.kind = .f ∧ 8 * r.size = 32 ∧ r.width = w) := by decide +kernel

/-! ### C106: map_simd, map_fill_simd, reduce_simd and their scalar versions -/

/-- The operations of `f32s` act lane by lane, `rsqrt` as `rsq`. -/
structure F32Ops.Lanewise (o : F32Ops w) (rsq : BitVec 32 → BitVec 32) : Prop where
  abs : ∀ v, o.abs v = ok (v.map fabsScalar)
  sqrt : ∀ v, o.sqrt v = ok (v.map fsqrt)
  rsqrt : ∀ v, o.rsqrt v = ok (v.map rsq)
  ceil : ∀ v, o.ceil v = ok (v.map (fround .up))
  floor : ∀ v, o.floor v = ok (v.map (fround .down))

/-- The rows of one vector type. -/
structure F32Rows (w : Nat) (ra : AbsRow) (rs rc rf : UnRow) : Prop where
  hra : ra ∈ absRows ++ absRowsUnknown
  hrs : rs ∈ sqrtRows ++ sqrtRowsUnknown
  hrc : rc ∈ roundRows ++ roundRowsUnknown
  hrf : rf ∈ roundRows ++ roundRowsUnknown
  ea : ra.kind = .f ∧ 8 * ra.size = 32 ∧ ra.width = w
  es : 8 * rs.size = 32 ∧ rs.width = w
  ec : rc.fn = .ceil ∧ 8 * rc.size = 32 ∧ rc.width = w
  ef : rf.fn = .floor ∧ 8 * rf.size = 32 ∧ rf.width = w

/-- The operations of the crate, each with or without its instruction. -/
def f32Of {ra : AbsRow} {rs rc rf : UnRow} (h : F32Rows w ra rs rc rf) (oa os oc of : Bool)
    (rsqrt : Vector (BitVec 32) w → Res (Vector (BitVec 32) w)) : F32Ops w where
  abs := retype (w := ra.width) h.ea.2.1 h.ea.2.2 (absOf oa ra)
  sqrt := retype h.es.1 h.es.2 (sqrtOf os rs)
  rsqrt := rsqrt
  ceil := retype h.ec.2.1 h.ec.2.2 (roundOf oc rc)
  floor := retype h.ef.2.1 h.ef.2.2 (roundOf of rf)

/-- All versions act lane by lane, if `rsqrt` does. -/
theorem f32Of_lanewise {ra : AbsRow} {rs rc rf : UnRow} (h : F32Rows w ra rs rc rf)
    (oa os oc of : Bool) {rsqrt : Vector (BitVec 32) w → Res (Vector (BitVec 32) w)}
    {rsq : BitVec 32 → BitVec 32} (hr : ∀ v, rsqrt v = ok (v.map rsq)) :
    (f32Of h oa os oc of rsqrt).Lanewise rsq where
  abs := retype_map fabsScalar (absOf_map oa ra h.hra h.ea.1)
  sqrt := retype_map fsqrt (sqrtOf_map os rs h.hrs)
  rsqrt := hr
  ceil := retype_map (fround .up) (roundOf_map oc rc h.hrc .up (by rw [h.ec.1]; rfl)
    (by rw [h.ec.1]; simp))
  floor := retype_map (fround .down) (roundOf_map of rf h.hrf .down (by rw [h.ef.1]; rfl)
    (by rw [h.ef.1]; simp))

/-- Without the instruction `rsqrt` acts lane by lane as root and reciprocal. -/
theorem rsqrt_fallback_lanewise {rq : UnRow} (hr : rq ∈ rsqrtRows ++ rsqrtRowsUnknown)
    (v : Vector (BitVec 32) rq.width) :
    rootFallback fsqrt frecip rq v = ok (v.map rsqrtExact) :=
  rsqrtFallback_map rq hr v

example : (∃ ra rs rc rf, F32Rows 4 ra rs rc rf) ∧ (∃ ra rs rc rf, F32Rows 8 ra rs rc rf) := by
  have a : ∀ w ∈ [4, 8], (∃ r ∈ absRows ++ absRowsUnknown, r.kind = .f ∧ 8 * r.size = 32 ∧ r.width = w) ∧
      (∃ r ∈ sqrtRows ++ sqrtRowsUnknown, 8 * r.size = 32 ∧ r.width = w) ∧
      (∃ r ∈ roundRows ++ roundRowsUnknown, r.fn = .ceil ∧ 8 * r.size = 32 ∧ r.width = w) ∧
      (∃ r ∈ roundRows ++ roundRowsUnknown, r.fn = .floor ∧ 8 * r.size = 32 ∧ r.width = w) := by
    decide +kernel
  constructor
  · obtain ⟨⟨ra, a1, a2⟩, ⟨rs, b1, b2⟩, ⟨rc, c1, c2⟩, ⟨rf, d1, d2⟩⟩ := a 4 (by simp)
    exact ⟨ra, rs, rc, rf, a1, b1, c1, d1, a2, b2, c2, d2⟩
  · obtain ⟨⟨ra, a1, a2⟩, ⟨rs, b1, b2⟩, ⟨rc, c1, c2⟩, ⟨rf, d1, d2⟩⟩ := a 8 (by simp)
    exact ⟨ra, rs, rc, rf, a1, b1, c1, d1, a2, b2, c2, d2⟩

/-- The constants are the floats of these values. -/
theorem f32_constants : ieee f32Nine = .fin 9 ∧ ieee f32Four = .fin 4 ∧ ieee f32Two = .fin 2 ∧
    ieee (0x40400000#32) = .fin 3 ∧ ieee (0x3F800000#32) = .fin 1 := by
  have h (k : ℤ) (hk : k.natAbs ≤ 2 ^ 24) := fofInt_exact (k := 32) (.inl rfl) (z := k) hk
  refine ⟨?_, ?_, ?_, ?_, ?_⟩
  · rw [show f32Nine = fofInt 32 9 by decide +kernel, h 9 (by decide)]; norm_num
  · rw [show f32Four = fofInt 32 4 by decide +kernel, h 4 (by decide)]; norm_num
  · rw [show f32Two = fofInt 32 2 by decide +kernel, h 2 (by decide)]; norm_num
  · rw [show 0x40400000#32 = fofInt 32 3 by decide +kernel, h 3 (by decide)]; norm_num
  · rw [show 0x3F800000#32 = fofInt 32 1 by decide +kernel, h 1 (by decide)]; norm_num

/-- The scalar map, with any reciprocal root. -/
def mapCurve (rsq : BitVec 32 → BitVec 32) (x : BitVec 32) : BitVec 32 :=
  fsub (fsub (curveScalar rsq x) f32Four) f32Two

theorem curveVec_map {o : F32Ops w} {rsq : BitVec 32 → BitVec 32} (h : o.Lanewise rsq)
    (v : Vector (BitVec 32) w) : curveVec o v = ok (v.map (curveScalar rsq)) := by
  unfold curveVec
  simp only [h.abs, h.sqrt, h.rsqrt, h.ceil, ok_bind]
  congr 1
  apply Vector.ext
  intro i hi
  simp [Packed.splat, curveScalar]

theorem mapVec_map {o : F32Ops w} {rsq : BitVec 32 → BitVec 32} (h : o.Lanewise rsq)
    (v : Vector (BitVec 32) w) : mapVec o v = ok (v.map (mapCurve rsq)) := by
  unfold mapVec
  simp only [curveVec_map h, ok_bind]
  congr 1
  apply Vector.ext
  intro i hi
  simp [Packed.splat, mapCurve]

/-- **C106**, `map_simd` and `map_uneven_simd`: every element through the curve, in order,
for any slice. -/
theorem C106_map {o : F32Ops w} {rsq : BitVec 32 → BitVec 32} (h : o.Lanewise rsq) (c : Cfg)
    (fuel : Nat) (data : List (BitVec 32)) (hw : 0 < w) (hlen : data.length + w < c.usize)
    (hvec : w * 4 < c.usize) (hfuel : data.length / w < fuel) :
    mapSimd o c fuel data = ok ((data.map (mapCurve rsq)).map some) :=
  intrin_map (mapVec_map h) c fuel data hw hlen hvec hfuel

/-- **C106**: without RSQRTPS the result is that of `map_scalar`, bit for bit. -/
theorem C106_map_scalar {o : F32Ops w} (h : o.Lanewise rsqrtExact) (c : Cfg)
    (fuel : Nat) (data : List (BitVec 32)) (hw : 0 < w) (hlen : data.length + w < c.usize)
    (hvec : w * 4 < c.usize) (hfuel : data.length / w < fuel) :
    mapSimd o c fuel data = ok ((mapScalar data).map some) :=
  C106_map h c fuel data hw hlen hvec hfuel

theorem curve_nine {rsq : BitVec 32 → BitVec 32} (hr : IsRsqrt rsq) {x : BitVec 32} {a : ℚ}
    (hx : ieee x = .fin a) (ha : 1.002 ≤ |a|) : curveScalar rsq x = f32Nine := by
  unfold curveScalar
  rw [rsqrt_ceil hr hx ha]
  decide +kernel

theorem mapCurve_three {rsq : BitVec 32 → BitVec 32} (hr : IsRsqrt rsq) {x : BitVec 32} {a : ℚ}
    (hx : ieee x = .fin a) (ha : 1.002 ≤ |a|) : mapCurve rsq x = 0x40400000#32 := by
  unfold mapCurve
  rw [curve_nine hr hx ha]
  decide +kernel

/-- **C106**: on numbers of magnitude 1.002 and above (the benchmark has -123.456) every
version, with RSQRTPS or without, and the scalar version give 3.0 everywhere. -/
theorem C106_threes {o : F32Ops w} {rsq : BitVec 32 → BitVec 32} (h : o.Lanewise rsq)
    (hr : IsRsqrt rsq) (c : Cfg) (fuel : Nat) (data : List (BitVec 32))
    (hdata : ∀ x ∈ data, ∃ a : ℚ, ieee x = .fin a ∧ 1.002 ≤ |a|)
    (hw : 0 < w) (hlen : data.length + w < c.usize)
    (hvec : w * 4 < c.usize) (hfuel : data.length / w < fuel) :
    mapSimd o c fuel data = ok (List.replicate data.length (some 0x40400000#32)) ∧
    mapScalar data = List.replicate data.length 0x40400000#32 := by
  have key : ∀ {rsq : BitVec 32 → BitVec 32}, IsRsqrt rsq →
      data.map (mapCurve rsq) = List.replicate data.length 0x40400000#32 := by
    intro rsq hr
    rw [List.eq_replicate_iff]
    refine ⟨by simp, fun y hy => ?_⟩
    obtain ⟨x, hx, rfl⟩ := List.mem_map.1 hy
    obtain ⟨a, ha, hb⟩ := hdata x hx
    exact mapCurve_three hr ha hb
  refine ⟨?_, key rsqrt_fallback⟩
  rw [C106_map h c fuel data hw hlen hvec hfuel, key hr, List.map_replicate]

/-- The array of the benchmark: `-123.456`, the float nearest to it. -/
theorem f32_benchmark : ∃ a : ℚ, ieee (0xC2F6E979#32) = .fin a ∧ |a + 123.456| ≤ 1 / 2 ^ 18 := by
  have h2 : fnum (0xC2F6E979#32) = 16181625 * 2 ^ 132 := by decide +kernel
  have h3 : fsign (0xC2F6E979#32) = -1 := by
    unfold fsign
    rw [if_pos (by decide)]
  have h4 : fone 32 = 149 := rfl
  refine ⟨-(16181625 / 2 ^ 17), ?_, ?_⟩
  · rw [ieee_fin (.inl rfl) (by decide), h2, h3, h4]
    congr 1
    norm_num
  · norm_num [abs_le]

/-- **C106**, `map_fill_simd`: the same elements at the start of the buffer. -/
theorem C106_map_fill {o : F32Ops w} {rsq : BitVec 32 → BitVec 32} (h : o.Lanewise rsq) (c : Cfg)
    (fuel : Nat) (data buf : List (BitVec 32)) (hw : 0 < w) (hlen : data.length + w < c.usize)
    (hvec : w * 4 < c.usize) (hfuel : data.length / w < fuel) (hbuf : data.length ≤ buf.length) :
    mapFillSimd o c fuel data buf = ok (data.map (mapCurve rsq) ++ buf.drop data.length) := by
  unfold mapFillSimd
  have e : (fun (_ : Unit) (v : Vector (BitVec 32) w) => do ok (← mapVec o v, ())) =
      pureFn (Vector.map (mapCurve rsq)) := by
    funext _ v
    simp [mapVec_map h, pureFn]
  rw [e, C07_fill c fuel data _ _ buf hw (by decide) rfl hlen
    (by simpa [Packable.size] using hvec) hfuel hbuf]
  rfl

/-! ### Sums of integers -/

theorem range_vec {n : Nat} (v : Vector (BitVec n) w) :
    (List.range w).map (fun i => v[i]?.getD 0) = v.toList := by
  apply List.ext_getElem
  · simp
  · intro i h1 h2
    simp at h1
    simp [h1]

theorem sum_swap {α : Type} (l : List α) (is : List Nat) (f : α → Nat → ℤ) :
    (is.map fun i => (l.map fun v => f v i).sum).sum = (l.map fun v => (is.map (f v)).sum).sum := by
  induction l with
  | nil => simp
  | cons v l ih => simp only [List.map_cons, List.sum_cons, ← ih, List.sum_map_add]

/-- The lanes of an accumulator which adds floats of integral value. -/
theorem acc_int (g : BitVec 32 → BitVec 32) (z : BitVec 32 → ℤ) (vs : List (Vector (BitVec 32) w))
    (hz : ∀ x ∈ lanes vs, ieee (g x) = .fin (z x) ∧ 0 ≤ z x) (acc : Vector (BitVec 32) w)
    (k : Nat → ℤ) (hk : ∀ i (h : i < w), ieee acc[i] = .fin (k i) ∧ 0 ≤ k i)
    (hb : ∀ i < w, k i + (vs.map fun v => z (v[i]?.getD 0)).sum ≤ 2 ^ 24) :
    ∀ i (h : i < w), ieee (vs.foldl (fun a v => Vector.zipWith fadd a (v.map g)) acc)[i] =
      .fin ((k i + (vs.map fun v => z (v[i]?.getD 0)).sum : ℤ) : ℚ) := by
  induction vs generalizing acc k with
  | nil => intro i h; simpa using (hk i h).1
  | cons v vs ih =>
    have hpos : ∀ i < w, 0 ≤ (vs.map fun v => z (v[i]?.getD 0)).sum := by
      intro i hi
      apply List.sum_nonneg
      intro y hy
      obtain ⟨u, hu, rfl⟩ := List.mem_map.1 hy
      simp only [hi, getElem?_pos, Option.getD_some]
      exact (hz _ (by
        rw [lanes_cons]
        refine List.mem_append_right _ (List.mem_flatMap.2 ⟨u, hu, by simp⟩))).2
    intro i hi
    have hv : ∀ i (h : i < w), ieee (g v[i]) = .fin (z v[i]) ∧ 0 ≤ z v[i] := fun i h =>
      hz _ (by rw [lanes_cons]; exact List.mem_append_left _ (by simp))
    rw [List.foldl_cons]
    have := ih (fun x hx => hz x (by rw [lanes_cons]; exact List.mem_append_right _ hx))
      (Vector.zipWith fadd acc (v.map g)) (fun i => k i + z (v[i]?.getD 0)) (by
        intro i hi
        have h1 := hk i hi
        have h2 := hv i hi
        have h3 := hb i hi
        have h4 := hpos i hi
        simp only [List.map_cons, List.sum_cons, hi, getElem?_pos, Option.getD_some] at h3 h4 ⊢
        refine ⟨?_, by omega⟩
        rw [Vector.getElem_zipWith, Vector.getElem_map]
        exact fadd_int (.inl rfl) h1.1 h2.1 (by
          show (k i + z v[i]).natAbs ≤ 2 ^ 24
          have h5 := h2.2
          have h6 := h1.2
          omega)) (by
        intro i hi
        have h3 := hb i hi
        simp only [List.map_cons, List.sum_cons] at h3
        omega) i hi
    rw [this]
    congr 2
    simp only [List.map_cons, List.sum_cons]
    ring

/-- A reduction which adds floats of integral value is exact while the total is at most
2^24. -/
theorem reduce_int (g : BitVec 32 → BitVec 32) (z : BitVec 32 → ℤ)
    {sum : (BitVec 32 → BitVec 32 → BitVec 32) → Vector (BitVec 32) w → Res (BitVec 32)} {p : Plan}
    (hp : Follows sum (fZero 32 false) p) (hl : p.lanes = List.range w) (c : Cfg) (fuel : Nat)
    (data : List (BitVec 32)) (hw : 0 < w) (hlen : data.length + w < c.usize)
    (hfuel : data.length / w < fuel)
    (hz : ∀ x ∈ lanes (calls w (Packed.splat 0#32) data), ieee (g x) = .fin (z x) ∧ 0 ≤ z x)
    (hb : ((lanes (calls w (Packed.splat 0#32) data)).map z).sum ≤ 2 ^ 24) :
    ∃ s, (do
      let (_, acc, _) ← simdReduce c fuel (simdIter (w := w) data (Packed.splat 0#32))
        (Packed.splat 0#32) () (fun _ a v => ok (Vector.zipWith fadd a (v.map g), ()))
      sum fadd acc) = ok s ∧
      ieee s = .fin ((((lanes (calls w (Packed.splat 0#32) data)).map z).sum : ℤ) : ℚ) := by
  rw [C03_reduce_foldl c fuel data (Packed.splat 0#32) (Packed.splat 0#32)
    (fun (a v : Vector (BitVec 32) w) => Vector.zipWith fadd a (v.map g)) hw hlen hfuel]
  simp only [ok_bind]
  generalize calls w (Packed.splat 0#32) data = vs at hz hb ⊢
  have htot : ((List.range w).map fun i => (vs.map fun v => z (v[i]?.getD 0)).sum).sum =
      ((lanes vs).map z).sum := by
    rw [sum_swap vs (List.range w) (fun v i => z (v[i]?.getD 0))]
    unfold lanes
    rw [List.map_flatMap, List.flatMap_def, List.sum_flatten, List.map_map]
    congr 1
    apply List.map_congr_left
    intro v _
    simp only [Function.comp_apply]
    rw [← range_vec v, List.map_map]
    rfl
  have hnn : ∀ i < w, 0 ≤ (vs.map fun v => z (v[i]?.getD 0)).sum := by
    intro i hi
    apply List.sum_nonneg
    intro y hy
    obtain ⟨u, hu, rfl⟩ := List.mem_map.1 hy
    simp only [hi, getElem?_pos, Option.getD_some]
    exact (hz _ (List.mem_flatMap.2 ⟨u, hu, by simp⟩)).2
  have hle : ∀ i < w, (vs.map fun v => z (v[i]?.getD 0)).sum ≤ 2 ^ 24 := by
    intro i hi
    refine le_trans ?_ (htot ▸ hb)
    apply List.single_le_sum
    · intro y hy
      obtain ⟨j, hj, rfl⟩ := List.mem_map.1 hy
      exact hnn j (List.mem_range.1 hj)
    · exact List.mem_map.2 ⟨i, List.mem_range.2 hi, rfl⟩
  have h0 : ieee (0#32) = .fin ((0 : ℤ) : ℚ) := by
    have := (fzero_facts (n := 32) (.inl rfl) false).2
    rw [show fZero 32 false = 0#32 by decide] at this
    simpa using this
  have hacc := acc_int g z vs hz (Packed.splat 0#32) (fun _ => 0)
    (fun i hi => ⟨by simpa [Packed.splat] using h0, le_refl _⟩) (by simpa using hle)
  simp only [zero_add] at hacc
  obtain ⟨s, h1, h2⟩ := C63_integers (.inl rfl) hp hl _ (fun i => (vs.map fun v => z (v[i]?.getD 0)).sum)
    hacc (by
      rw [if_pos rfl]
      have e : (((List.range w).map fun i => (vs.map fun v => z (v[i]?.getD 0)).sum.natAbs).sum : ℤ) =
          ((List.range w).map fun i => (vs.map fun v => z (v[i]?.getD 0)).sum).sum := by
        rw [Nat.cast_list_sum, List.map_map]
        congr 1
        apply List.map_congr_left
        intro i hi
        have := hnn i (List.mem_range.1 hi)
        simp only [Function.comp_apply]
        omega
      rw [htot] at e
      have : (((List.range w).map fun i => (vs.map fun v => z (v[i]?.getD 0)).sum.natAbs).sum : ℤ) ≤ 2 ^ 24 := by
        rw [e]; exact hb
      exact_mod_cast this)
  refine ⟨s, h1, ?_⟩
  rw [h2, htot]

/-- The sum of an evaluation plan is not finite if a lane is not. -/
theorem Plan.eval_inf (v : Nat → BitVec 32) (zero : BitVec 32) (p : Plan) {i : Nat}
    (hi : i ∈ p.lanes) (h : ¬ (ieee (v i)).Finite) : ¬ (ieee (p.eval fadd zero v)).Finite := by
  induction p with
  | zero => simp [Plan.lanes] at hi
  | lane j => simp only [Plan.lanes, List.mem_singleton] at hi; subst hi; exact h
  | add l r ihl ihr =>
    simp only [Plan.lanes, List.mem_append] at hi
    exact fadd_absorbs (.inl rfl) (hi.imp ihl ihr)

theorem reduceSimd_eq {o : F32Ops w} {rsq : BitVec 32 → BitVec 32} (h : o.Lanewise rsq)
    (sum : Vector (BitVec 32) w → Res (BitVec 32)) (c : Cfg) (fuel : Nat) (data : List (BitVec 32)) :
    reduceSimd o sum c fuel data = (do
      let (_, acc, _) ← simdReduce c fuel (simdIter (w := w) data (Packed.splat 0#32))
        (Packed.splat 0#32) () (fun _ a v => ok (Vector.zipWith fadd a (v.map (curveScalar rsq)), ()))
      sum acc) := by
  unfold reduceSimd
  have e : (fun (_ : Unit) (a v : Vector (BitVec 32) w) => do
      let g ← curveVec o v
      ok (Vector.zipWith fadd a g, ())) =
      fun _ a v => ok (Vector.zipWith fadd a (v.map (curveScalar rsq)), ()) := by
    funext _ a v
    simp [curveVec_map h]
  rw [e]

/-- **C106**, `reduce_simd`: for a whole number of vectors of elements of magnitude 1.002
and above, whose sum does not exceed 2^24, every version gives exactly nine times the
number of elements. -/
theorem C106_reduce {o : F32Ops w} {rsq : BitVec 32 → BitVec 32} (h : o.Lanewise rsq)
    (hr : IsRsqrt rsq)
    {sum : (BitVec 32 → BitVec 32 → BitVec 32) → Vector (BitVec 32) w → Res (BitVec 32)} {p : Plan}
    (hp : Follows sum (fZero 32 false) p) (hl : p.lanes = List.range w)
    (c : Cfg) (fuel : Nat) (data : List (BitVec 32))
    (hdata : ∀ x ∈ data, ∃ a : ℚ, ieee x = .fin a ∧ 1.002 ≤ |a|)
    (hmul : data.length % w = 0) (hsize : 9 * data.length ≤ 2 ^ 24)
    (hw : 0 < w) (hlen : data.length + w < c.usize) (hfuel : data.length / w < fuel) :
    ∃ s, reduceSimd o (sum fadd) c fuel data = ok s ∧ ieee s = .fin (9 * data.length) := by
  rw [reduceSimd_eq h]
  have hs : (data.map fun _ => (9 : ℤ)).sum = 9 * data.length := by
    rw [List.map_const', List.sum_replicate]
    simp [mul_comm]
  obtain ⟨s, h1, h2⟩ := reduce_int (curveScalar rsq) (fun _ => 9) hp hl c fuel data hw hlen hfuel
    (by
      rw [lanes_calls hw _ _ hmul]
      intro x hx
      obtain ⟨a, ha, hb⟩ := hdata x hx
      rw [curve_nine hr ha hb, f32_constants.1]
      norm_num) (by rw [lanes_calls hw _ _ hmul, hs]; exact_mod_cast hsize)
  refine ⟨s, h1, ?_⟩
  rw [h2, lanes_calls hw _ _ hmul, hs]
  push_cast
  rfl

/-- **C106**, `reduce_scalar` on the same elements, for any number of them. -/
theorem C106_reduce_scalar (data : List (BitVec 32))
    (hdata : ∀ x ∈ data, ∃ a : ℚ, ieee x = .fin a ∧ 1.002 ≤ |a|)
    (hsize : 9 * data.length ≤ 2 ^ 24) : ieee (reduceScalar data) = .fin (9 * data.length) := by
  have key : ∀ (l : List (BitVec 32)) (acc : BitVec 32) (k : Nat),
      (∀ x ∈ l, ∃ a : ℚ, ieee x = .fin a ∧ 1.002 ≤ |a|) → ieee acc = .fin ((9 * k : ℤ) : ℚ) →
      9 * (k + l.length) ≤ 2 ^ 24 →
      ieee (l.foldl (fun a v => fadd a (curveScalar rsqrtExact v)) acc) =
        .fin ((9 * (k + l.length : ℕ) : ℤ) : ℚ) := by
    intro l
    induction l with
    | nil => intro acc k _ h _; simpa using h
    | cons x l ih =>
      intro acc k hd h hk
      obtain ⟨a, ha, hb⟩ := hd x (by simp)
      rw [List.foldl_cons, show curveScalar rsqrtExact x = f32Nine from curve_nine rsqrt_fallback ha hb]
      simp only [List.length_cons] at hk ⊢
      have h9 : ieee f32Nine = .fin ((9 : ℤ) : ℚ) := by rw [f32_constants.1]; norm_num
      have := ih (fadd acc f32Nine) (k + 1) (fun x hx => hd x (by simp [hx])) (by
        rw [fadd_int (.inl rfl) h h9 (by show _ ≤ 2 ^ 24; omega)]
        congr 2) (by omega)
      rw [this, show k + 1 + l.length = k + (l.length + 1) by omega]
  have h0 : ieee (0#32) = .fin ((9 * (0 : ℕ) : ℤ) : ℚ) := by
    have := (fzero_facts (n := 32) (.inl rfl) false).2
    rw [show fZero 32 false = 0#32 by decide] at this
    simpa using this
  have := key data 0#32 0 hdata h0 (by omega)
  unfold reduceScalar
  rw [this]
  push_cast
  simp

theorem curve_zero {rsq : BitVec 32 → BitVec 32} (hr : IsRsqrt rsq) :
    ieee (curveScalar rsq 0#32) = .inf false := by
  have h0 : fsqrt (fabsScalar 0#32) = 0#32 := by decide +kernel
  have hz : ieee (0#32) = .fin 0 := by
    have := (fzero_facts (n := 32) (.inl rfl) false).2
    rwa [show fZero 32 false = 0#32 by decide] at this
  unfold curveScalar
  rw [h0]
  have h1 := hr.2 0#32 hz (by decide)
  rw [fround_special (.inl rfl) _ _ (by simp [h1]), fsqrt_inf (.inl rfl) h1]
  rw [fmul_inf (.inl rfl) f32_constants.1 (by norm_num) h1, show f32Nine.msb = false by decide]
  rfl

theorem padFront_zero (d : Vector (BitVec 32) w) (r : List (BitVec 32)) (h : r.length < w) :
    (padFront d r)[0]'(by omega) = d[0]'(by omega) := by
  rw [padFront_getElem _ _ _ _ h.le, dif_pos (by omega)]

/-- **C106** is false for `reduce_uneven_simd`: if the length is not a multiple of the
width, the result is not finite, whatever the elements are. The last vector is padded with
0.0, whose reciprocal root is infinite. -/
theorem C106_reduce_false {o : F32Ops w} {rsq : BitVec 32 → BitVec 32} (h : o.Lanewise rsq)
    (hr : IsRsqrt rsq)
    {sum : (BitVec 32 → BitVec 32 → BitVec 32) → Vector (BitVec 32) w → Res (BitVec 32)} {p : Plan}
    (hp : Follows sum (fZero 32 false) p) (hl : p.lanes = List.range w)
    (c : Cfg) (fuel : Nat) (data : List (BitVec 32)) (hmul : data.length % w ≠ 0)
    (hw : 0 < w) (hlen : data.length + w < c.usize) (hfuel : data.length / w < fuel) :
    ∃ s, reduceSimd o (sum fadd) c fuel data = ok s ∧ ¬ (ieee s).Finite := by
  rw [reduceSimd_eq h, C03_reduce_foldl c fuel data (Packed.splat 0#32) (Packed.splat 0#32)
    (fun (a v : Vector (BitVec 32) w) => Vector.zipWith fadd a (v.map (curveScalar rsq))) hw hlen hfuel]
  simp only [ok_bind]
  refine ⟨_, hp fadd _, ?_⟩
  refine Plan.eval_inf _ _ p (i := 0) (by rw [hl]; exact List.mem_range.2 hw) ?_
  unfold calls
  rw [if_neg hmul, List.foldl_append, List.foldl_cons, List.foldl_nil]
  simp only [hw, getElem?_pos, Option.getD_some, Vector.getElem_zipWith, Vector.getElem_map]
  refine fadd_absorbs (.inl rfl) (.inr ?_)
  rw [padFront_zero _ _ (by rw [leftover_length]; exact Nat.mod_lt _ hw)]
  have : (Packed.splat 0#32 : Vector (BitVec 32) w)[0]'hw = 0#32 := by simp [Packed.splat]
  rw [this, curve_zero hr]
  exact fun h => h

/-! ### C107: `reduced` of examples/main.rs -/

/-- `k` is the fourth root of the magnitude of `x`, rounded down; and the next fourth power
is not so close that a rounding of the roots could reach it. -/
def IsFloorRoot (x : BitVec 32) (k : Nat) : Prop :=
  ∃ a : ℚ, ieee x = .fin a ∧ (k : ℚ) ^ 4 ≤ |a| ∧ |a| ≤ ((k : ℚ) + 1) ^ 4 * (1 - 1 / 2 ^ 20) ∧
    k < 4096

/-- Rounding does not go below a float. -/
theorem isRoundOf_ge {n : Nat} {v : ℝ} {r m : BitVec n} {b c : ℚ} (h : IsRoundOf v r)
    (hr : ieee r = .fin b) (hm : ieee m = .fin c) (hv : (c : ℝ) ≤ v) : c ≤ b := by
  have h2 := h.2
  rw [hr] at h2
  have := h2.2.1 m c hm
  by_contra hc
  rw [not_le] at hc
  have hc' : (b : ℝ) < c := by exact_mod_cast hc
  rw [abs_of_nonneg (by linarith), abs_of_nonneg (by linarith)] at this
  linarith

/-- Rounding does not go above a float. -/
theorem isRoundOf_le {n : Nat} {v : ℝ} {r m : BitVec n} {b c : ℚ} (h : IsRoundOf v r)
    (hr : ieee r = .fin b) (hm : ieee m = .fin c) (hv : v ≤ (c : ℝ)) : b ≤ c := by
  have h2 := h.2
  rw [hr] at h2
  have := h2.2.1 m c hm
  by_contra hc
  rw [not_le] at hc
  have hc' : (c : ℝ) < b := by exact_mod_cast hc
  rw [abs_of_nonpos (by linarith), abs_of_nonpos (by linarith)] at this
  linarith

theorem isRoundOf_fin {n : Nat} {v : ℝ} {r : BitVec n} (h : IsRoundOf v r) (hv : |v| < fLimit n) :
    ∃ b : ℚ, ieee r = .fin b := by
  have h2 := h.2
  cases hr : ieee r with
  | nan => rw [hr] at h2; exact h2.elim
  | inf t => rw [hr] at h2; exact absurd hv (not_lt.mpr h2)
  | fin b => exact ⟨b, rfl⟩

/-- One root: from `c` to below `d`, if the number is from `c ^ 2` to sufficiently far below
`d ^ 2`. -/
theorem root_bounds {x : BitVec 32} {a : ℚ} (hx : ieee x = .fin a) {c d : Nat} (hc : c ≤ 2 ^ 24)
    (hd : d ≤ 2 ^ 24) {e : ℚ} {M : BitVec 32} (he : 1 / 2 ^ 22 ≤ e) (he1 : e ≤ 1)
    (hM : ieee M = .fin (1 - e / 2))
    (hlo : (c : ℚ) ^ 2 ≤ a) (hhi : a ≤ (d : ℚ) ^ 2 * (1 - e)) (hcd : c = 0 ∧ d = 1 ∨ 1 ≤ c) :
    ∃ b : ℚ, ieee (fsqrt x) = .fin b ∧ (c : ℚ) ≤ b ∧ b ≤ (d : ℚ) * (1 - e / 4) := by
  have hL : fLimit 32 = 2 ^ 128 - 2 ^ 103 := by simp [fLimit]
  have ha : 0 ≤ a := le_trans (by positivity) hlo
  have hR := fsqrt_root (.inl rfl) x
  unfold IsRoot at hR
  rw [hx] at hR
  simp only [if_pos ha] at hR
  have hR := hR.1
  have heR : (1 : ℝ) / 2 ^ 22 ≤ e := by
    have := (Rat.cast_le (K := ℝ)).2 he
    push_cast at this
    exact this
  have heR1 : (e : ℝ) ≤ 1 := by exact_mod_cast he1
  have hhiR : (a : ℝ) ≤ (d : ℝ) ^ 2 * (1 - e) := by exact_mod_cast hhi
  have hv1 : (c : ℝ) ≤ Real.sqrt a := by
    apply Real.le_sqrt_of_sq_le
    exact_mod_cast hlo
  have hv2 : Real.sqrt a ≤ (d : ℝ) * (1 - e / 2) := by
    rw [Real.sqrt_le_left (mul_nonneg (by positivity) (by linarith))]
    refine le_trans hhiR ?_
    rw [mul_pow]
    apply mul_le_mul_of_nonneg_left _ (by positivity)
    nlinarith [sq_nonneg (e : ℝ)]
  have hdR : (d : ℝ) ≤ 2 ^ 24 := by exact_mod_cast hd
  have hd0 : (0 : ℝ) ≤ d := by positivity
  have hlim : |Real.sqrt a| < fLimit 32 := by
    rw [abs_of_nonneg (Real.sqrt_nonneg _), hL]
    have : (d : ℝ) * (1 - e / 2) ≤ d := by nlinarith
    have h3 : Real.sqrt a ≤ 2 ^ 24 := by linarith
    refine lt_of_le_of_lt h3 ?_
    norm_num
  obtain ⟨b, hb⟩ := isRoundOf_fin hR hlim
  refine ⟨b, hb, ?_, ?_⟩
  · have h1 : ieee (fofInt 32 c) = .fin ((c : ℤ) : ℚ) := fofInt_exact (.inl rfl) hc
    have := isRoundOf_ge hR hb h1 (by push_cast; exact hv1)
    push_cast at this
    exact this
  · rcases hcd with ⟨-, rfl⟩ | hc1
    · have := isRoundOf_le hR hb hM (by push_cast at hv2 ⊢; linarith)
      push_cast
      linarith
    · have hN : fNormal 32 = 1 / 2 ^ 126 := by simp [fNormal]
      have hc1' : (1 : ℝ) ≤ c := by exact_mod_cast hc1
      obtain ⟨b', hb', hrel⟩ := isRoundOf_rel (.inl rfl) hR (by
        rw [abs_of_nonneg (Real.sqrt_nonneg _), hN]
        refine le_trans ?_ (le_trans hc1' hv1)
        norm_num) hlim
      rw [hb] at hb'
      cases hb'
      rw [abs_of_nonneg (Real.sqrt_nonneg _), show mantBits 32 + 1 = 24 from rfl, abs_le] at hrel
      have h5 : (b : ℝ) ≤ Real.sqrt a * (1 + 1 / 2 ^ 24) := by linarith [hrel.1]
      have h6 : (b : ℝ) ≤ (d : ℝ) * (1 - e / 4) := by
        refine le_trans h5 (le_trans (mul_le_mul_of_nonneg_right hv2 (by positivity)) ?_)
        rw [mul_assoc]
        apply mul_le_mul_of_nonneg_left _ hd0
        norm_num at heR ⊢
        linarith
      exact_mod_cast h6

/-- What `reduced` adds for one number. -/
theorem floor_root {x : BitVec 32} {k : Nat} (h : IsFloorRoot x k) :
    ieee (fround .down (fsqrt (fsqrt (fabsScalar x)))) = .fin k := by
  obtain ⟨a, hx, h1, h2, h3⟩ := h
  obtain ⟨-, hy⟩ := fabs_facts (.inl rfl) hx
  have hsmall (j : Nat) (x : BitVec 32) (m : Nat) (hm : fnum x = m * 2 ^ 125) (hmag : fmag x < infBits 32)
      (hneg : x.msb = false) : ieee x = .fin (m / 2 ^ 24) := by
    have h3 : fsign x = 1 := by
      unfold fsign
      rw [if_neg (by simp [hneg])]
    rw [ieee_fin (.inl rfl) hmag, hm, h3, show fone 32 = 125 + 24 from rfl]
    congr 1
    generalize 125 = q
    push_cast
    rw [pow_add]
    field_simp
  have hM1 : ieee (0x3F7FFFF8#32) = .fin (1 - 1 / 2 ^ 20 / 2) := by
    rw [hsmall 0 _ (2 ^ 24 - 8) (by decide +kernel) (by decide) (by decide)]
    norm_num
  have hM2 : ieee (0x3F7FFFFE#32) = .fin (1 - 1 / 2 ^ 22 / 2) := by
    rw [hsmall 0 _ (2 ^ 24 - 2) (by decide +kernel) (by decide) (by decide)]
    norm_num
  have hk2 : (k + 1) ^ 2 ≤ 2 ^ 24 := Nat.pow_le_pow_left (show k + 1 ≤ 2 ^ 12 by omega) 2
  have hk1 : k ^ 2 ≤ 2 ^ 24 := Nat.pow_le_pow_left (show k ≤ 2 ^ 12 by omega) 2
  have hcase : k = 0 ∨ 1 ≤ k := by omega
  obtain ⟨b, hb, hb1, hb2⟩ := root_bounds hy (c := k ^ 2) (d := (k + 1) ^ 2) hk1 hk2
    (e := 1 / 2 ^ 20) (by norm_num) (by norm_num) hM1
    (by push_cast; rw [← pow_mul]; exact h1) (by push_cast; rw [← pow_mul]; exact h2)
    (by rcases hcase with rfl | hk
        · exact .inl ⟨rfl, rfl⟩
        · exact .inr (Nat.one_le_pow _ _ hk))
  obtain ⟨b', hb', hb1', hb2'⟩ := root_bounds hb (c := k) (d := k + 1) (by omega) (by omega)
    (e := 1 / 2 ^ 22) (by norm_num) (by norm_num) hM2 (by push_cast at hb1; exact hb1)
    (by push_cast at hb2 ⊢; refine le_trans hb2 (le_of_eq ?_); norm_num)
    (by rcases hcase with rfl | hk
        · exact .inl ⟨rfl, rfl⟩
        · exact .inr hk)
  have h := fround_spec (.inl rfl) .down (fsqrt (fsqrt (fabsScalar x)))
  unfold IsRounded at h
  rw [hb'] at h
  obtain ⟨-, j, hj, hp⟩ := h
  have hj' : j = ⌊b'⌋ := hp
  have : j = k := by
    rw [hj', Int.floor_eq_iff]
    push_cast at hb2' ⊢
    refine ⟨hb1', lt_of_le_of_lt hb2' ?_⟩
    have : (0 : ℚ) < (k : ℚ) + 1 := by positivity
    nlinarith
  rw [hj, this]
  push_cast
  rfl

theorem padFront_splat {α : Type} (e : α) (r : List α) (h : r.length < w) :
    (padFront (Packed.splat e) r : Vector α w).toList =
      List.replicate (w - r.length) e ++ r := by
  have hd := padFront_drop (Packed.splat e : Vector α w) r h.le
  rw [← List.take_append_drop (w - r.length) (padFront _ _).toList, hd]
  congr 1
  apply List.ext_getElem
  · simp
  · intro i h1 h2
    simp only [List.length_take, Vector.length_toList, List.length_replicate] at h1 h2
    simp only [List.getElem_take, Vector.getElem_toList, List.getElem_replicate]
    rw [padFront_getElem _ _ _ _ h.le, dif_pos (by omega)]
    simp [Packed.splat]

/-- The lanes are elements or padding. -/
theorem mem_pad_zero {α : Type} (e : α) (hw : 0 < w) (data : List α) :
    ∀ x ∈ lanes (calls w (Packed.splat e) data), (data.length % w ≠ 0 ∧ x = e) ∨ x ∈ data := by
  have h := lanes_fullWindows hw data
  intro x hx
  unfold calls at hx
  have hl : (leftover w data).length < w := by rw [leftover_length]; exact Nat.mod_lt _ hw
  have hsub : ∀ x, x ∈ lanes (fullWindows w data) ∨ x ∈ leftover w data → x ∈ data := by
    intro x hx
    rw [← h]
    exact List.mem_append.2 hx
  unfold lanes at hsub
  split at hx
  · rw [List.append_nil] at hx
    exact .inr (hsub x (.inl hx))
  · simp only [lanes, List.flatMap_append, List.mem_append, List.flatMap_cons, List.flatMap_nil,
      List.append_nil, padFront_splat _ _ hl] at hx
    rcases hx with hx | hx | hx
    · exact .inr (hsub x (.inl hx))
    · exact .inl ⟨by assumption, (List.mem_replicate.1 hx).2⟩
    · exact .inr (hsub x (.inr hx))

/-- Padding does not change the sum of a function which is zero on it. -/
theorem sum_pad_zero {α M : Type} [AddMonoid M] (z : α → M) (e : α) (hw : 0 < w) (data : List α)
    (h0 : data.length % w = 0 ∨ z e = 0) :
    ((lanes (calls w (Packed.splat e) data)).map z).sum = (data.map z).sum := by
  have h := lanes_fullWindows hw data
  unfold calls
  split
  · rename_i hm
    have := lanes_calls hw (Packed.splat e) data hm
    unfold calls at this
    rw [if_pos hm] at this
    rw [this]
  · have hl : (leftover w data).length < w := by rw [leftover_length]; exact Nat.mod_lt _ hw
    have hp := padFront_splat e (leftover w data) hl
    have hsplit : lanes (fullWindows w data ++ [padFront (Packed.splat e) (leftover w data)]) =
        lanes (fullWindows w data) ++ (padFront (Packed.splat e) (leftover w data) :
          Vector α w).toList := by simp [lanes]
    rw [hsplit, hp]
    conv_rhs => rw [← h]
    simp [h0.resolve_left (by assumption)]

theorem exampleReduced_eq {o : F32Ops w} {rsq : BitVec 32 → BitVec 32} (h : o.Lanewise rsq)
    (sum : Vector (BitVec 32) w → Res (BitVec 32)) (c : Cfg) (fuel : Nat) (data : List (BitVec 32)) :
    exampleReduced o sum c fuel data = (do
      let (_, acc, _) ← simdReduce c fuel (simdIter (w := w) data (Packed.splat 0#32))
        (Packed.splat 0#32) () (fun _ a v => ok (Vector.zipWith fadd a
          (v.map fun x => fround .down (fsqrt (fsqrt (fabsScalar x)))), ()))
      sum acc) := by
  unfold exampleReduced
  congr 1
  congr 1
  funext _ a v
  simp only [h.abs, h.sqrt, h.floor, ok_bind]
  congr 2
  apply Vector.ext
  intro i hi
  simp

/-- **C107.** `reduced` is exactly the sum of the fourth roots of the magnitudes, each
rounded down, for any length: the padding counts for nothing. -/
theorem C107_reduced {o : F32Ops w} {rsq : BitVec 32 → BitVec 32} (h : o.Lanewise rsq)
    {sum : (BitVec 32 → BitVec 32 → BitVec 32) → Vector (BitVec 32) w → Res (BitVec 32)} {p : Plan}
    (hp : Follows sum (fZero 32 false) p) (hl : p.lanes = List.range w)
    (c : Cfg) (fuel : Nat) (data : List (BitVec 32)) (root : BitVec 32 → Nat)
    (hroot : ∀ x ∈ data, IsFloorRoot x (root x)) (hsum : (data.map root).sum ≤ 2 ^ 24)
    (hw : 0 < w) (hlen : data.length + w < c.usize) (hfuel : data.length / w < fuel) :
    ∃ s, exampleReduced o (sum fadd) c fuel data = ok s ∧ ieee s = .fin ((data.map root).sum : ℕ) := by
  have hz : ieee (0#32) = .fin 0 := by
    have := (fzero_facts (n := 32) (.inl rfl) false).2
    rwa [show fZero 32 false = 0#32 by decide] at this
  let z : BitVec 32 → ℤ := fun x => if x = 0#32 then 0 else root x
  have hz0 : ∀ x ∈ data, z x = root x := by
    intro x hx
    by_cases h : x = 0#32
    · subst h
      obtain ⟨a, ha, h1, -, -⟩ := hroot _ hx
      rw [hz] at ha
      cases ha
      have : (root 0#32 : ℚ) ^ 4 = 0 := le_antisymm (by simpa using h1) (by positivity)
      have : root 0#32 = 0 := by exact_mod_cast pow_eq_zero_iff (by decide) |>.1 this
      simp [z, this]
    · simp [z, h]
  have hs : (data.map z).sum = ((data.map root).sum : ℕ) := by
    rw [Nat.cast_list_sum, List.map_map]
    congr 1
    exact List.map_congr_left hz0
  have hmem := mem_pad_zero 0#32 hw data
  rw [exampleReduced_eq h]
  obtain ⟨s, h1, h2⟩ := reduce_int (fun x => fround .down (fsqrt (fsqrt (fabsScalar x)))) z hp hl c fuel data hw hlen hfuel (by
      intro x hx
      by_cases h : x = 0#32
      · subst h
        have e : z 0#32 = 0 := by simp [z]
        rw [e]
        refine ⟨?_, le_refl _⟩
        have := floor_root (x := 0#32) (k := 0) ⟨0, hz, by simp, by norm_num, by omega⟩
        simpa using this
      · have hx := (hmem x hx).resolve_left fun h' => h h'.2
        rw [hz0 x hx]
        refine ⟨?_, by positivity⟩
        have := floor_root (hroot x hx)
        simpa using this)
    (by rw [sum_pad_zero z 0#32 hw data (.inr (by simp [z])), hs]; exact_mod_cast hsum)
  refine ⟨s, h1, ?_⟩
  rw [h2, sum_pad_zero z 0#32 hw data (.inr (by simp [z])), hs]
  rw [Int.cast_natCast]

theorem f32_minus_one : ieee (0xBF800000#32) = .fin (-1) := by
  have := fofInt_exact (k := 32) (.inl rfl) (z := -1) (by decide)
  rw [show 0xBF800000#32 = fofInt 32 (-1) by decide +kernel, this]
  norm_num

/-- The array of the example, `[-1.0; 128]`, with any number of elements up to 2^24: the
sum of `N` of them is `N`. -/
theorem C107_example {o : F32Ops w} {rsq : BitVec 32 → BitVec 32} (h : o.Lanewise rsq)
    {sum : (BitVec 32 → BitVec 32 → BitVec 32) → Vector (BitVec 32) w → Res (BitVec 32)} {p : Plan}
    (hp : Follows sum (fZero 32 false) p) (hl : p.lanes = List.range w)
    (c : Cfg) (N : Nat) (hN : N ≤ 2 ^ 24) (hw : 0 < w) (hlen : N + w < c.usize) :
    ∃ s, exampleReduced o (sum fadd) c (N + 1) (List.replicate N (0xBF800000#32)) = ok s ∧
      ieee s = .fin N := by
  have := C107_reduced h hp hl c (N + 1) (List.replicate N (0xBF800000#32)) (fun _ => 1)
    (fun x hx => by
      rw [(List.mem_replicate.1 hx).2]
      exact ⟨-1, f32_minus_one, by norm_num, by norm_num, by omega⟩)
    (by simpa using hN) hw (by simpa using hlen)
    (by simpa using Nat.lt_succ_of_le (Nat.div_le_self N w))
  simpa using this

/-- `lots_of_3s` and `lots_of_3s_sc`: any number of -123.456 give as many 3.0. -/
theorem C107_lots_of_3s {o : F32Ops w} {rsq : BitVec 32 → BitVec 32} (h : o.Lanewise rsq)
    (hr : IsRsqrt rsq) (c : Cfg) (N : Nat) (hw : 0 < w) (hlen : N + w < c.usize)
    (hvec : w * 4 < c.usize) :
    mapSimd o c (N + 1) (List.replicate N (0xC2F6E979#32)) =
      ok (List.replicate N (some 0x40400000#32)) ∧
    mapScalar (List.replicate N (0xC2F6E979#32)) = List.replicate N 0x40400000#32 := by
  have := C106_threes h hr c (N + 1) (List.replicate N (0xC2F6E979#32)) (fun x hx => by
      rw [(List.mem_replicate.1 hx).2]
      obtain ⟨a, ha, hb⟩ := f32_benchmark
      refine ⟨a, ha, ?_⟩
      have : a ≤ -1.002 := by
        rw [abs_le] at hb
        norm_num at hb ⊢
        linarith [hb.2]
      rw [abs_of_nonpos (by norm_num at this; linarith)]
      linarith) hw (by simpa using hlen) hvec
    (by simpa using Nat.lt_succ_of_le (Nat.div_le_self N w))
  simpa using this

/-- Fourth roots of other numbers: 16.0 adds 2, 15.9 adds 1 and 0.5 adds 0. -/
example : IsFloorRoot (fofInt 32 16) 2 := by
  refine ⟨((16 : ℤ) : ℚ), fofInt_exact (.inl rfl) (by decide), ?_, ?_, by omega⟩ <;> norm_num

/-! ### C108: high_latency -/

/-- The scalar computation of `high_latency`. -/
def latencyScalar (x : BitVec 32) : BitVec 32 :=
  fconv 32 (fmul (fsqrt (fconv 64 (fmul x f32OneTwo))) f64Pi)

/-- The casts keep the order of the lanes; all operations act lane by lane. -/
structure LatencyOps.Lanewise {q : Nat} (o : LatencyOps q) : Prop where
  up : ∀ v, ∃ a b, o.up v = ok (a, b) ∧ a.toList ++ b.toList = v.toList.map (fconv 64)
  sqrt : ∀ v, o.sqrt v = ok (v.map fsqrt)
  down : ∀ a b, ∃ u, o.down a b = ok u ∧ u.toList = (a.toList ++ b.toList).map (fconv 32)

/-- The operations of the crate, with or without their instructions. -/
def latencyOf (q : Nat) (ru : UpRow) (rs : UnRow) (rd : DownRow) (ou os : Bool)
    (h : rs.width = q) : LatencyOps q where
  up := upFloat ou ru
  sqrt := retype rfl h (sqrtOf os rs)
  down := downcastFloat rd.lanes

/-- All versions act lane by lane. -/
theorem latencyOf_lanewise {q : Nat} (ru : UpRow) (rs : UnRow) (rd : DownRow) (ou os : Bool)
    (h : rs.width = q) (hru : ru ∈ upcastRows ++ upcastRowsUnknown)
    (hrs : rs ∈ sqrtRows ++ sqrtRowsUnknown) (hrd : rd ∈ downcastRows ++ downcastRowsUnknown)
    (eu : ru.kind = .f ∧ ru.toKind = .f ∧ ru.width = 2 * q) (ed : rd.kind = .f ∧ rd.width = q) :
    (latencyOf q ru rs rd ou os h).Lanewise where
  up := by
    intro v
    obtain ⟨e1, e2, -⟩ := upcastFloat_facts ru hru eu.2.1
    have gen : ∀ {n k w w' : Nat} (_ : n = 8 * ru.size) (_ : k = 16 * ru.size)
        (_ : w = ru.width) (_ : w' = ru.width / 2) (v : Vector (BitVec n) w),
        ∃ a b : Vector (BitVec k) w', upFloat ou ru v = ok (a, b) ∧
          a.toList ++ b.toList = v.toList.map (fconv k) := by
      intro n k w w' hn hn' hw hw' v
      subst hn hn' hw hw'
      have hconv : widen (toFloat (n := 8 * ru.size) (k := 16 * ru.size) ru.kind) ru.kind ru.toKind =
          fconv (16 * ru.size) := by
        funext x
        simp [widen, eu.1, eu.2.1, toFloat]
      unfold upFloat
      rw [← hconv]
      split
      · rename_i mm hm
        rcases List.mem_append.1 hru with hr | hr
        · exact C45_order_optimized ru hr mm hm _ v
        · rw [upcastRowsUnknown_mm ru hr] at hm
          exact absurd hm (by simp)
      · exact C45_order_fallback ru hru _ v
    exact gen e1.symm e2.symm eu.2.2.symm (by omega) v
  sqrt := fun v => retype_map (hn := rfl) (hw := h) fsqrt (sqrtOf_map os rs hrs) v
  down := by
    obtain ⟨-, -, h1, h2⟩ := downcastFloat_facts rd hrd ed.1
    rw [ed.2] at h1 h2
    exact fun a b => downcastFloat_ok h1 h2 a b

example : ∀ q ∈ [2, 4], (∃ r ∈ upcastRows ++ upcastRowsUnknown, r.kind = .f ∧ r.toKind = .f ∧
      r.width = 2 * q) ∧ (∃ r ∈ sqrtRows ++ sqrtRowsUnknown, r.width = q) ∧
    ∃ r ∈ downcastRows ++ downcastRowsUnknown, r.kind = .f ∧ r.width = q := by decide +kernel

theorem latencyVec_map {q : Nat} {o : LatencyOps q} (h : o.Lanewise)
    (v : Vector (BitVec 32) (2 * q)) : latencyVec o v = ok (v.map latencyScalar) := by
  unfold latencyVec
  obtain ⟨a, b, h1, h2⟩ := h.up (Vector.zipWith fmul v (Packed.splat f32OneTwo))
  obtain ⟨u, h3, h4⟩ := h.down (Vector.zipWith fmul (a.map fsqrt) (Packed.splat f64Pi))
    (Vector.zipWith fmul (b.map fsqrt) (Packed.splat f64Pi))
  simp only [h1, h.sqrt, ok_bind, h3]
  congr 1
  have hz {n k : Nat} (x : Vector (BitVec n) k) (y : BitVec n) :
      (Vector.zipWith fmul x (Packed.splat y)).toList = x.toList.map (fmul · y) := by
    apply List.ext_getElem
    · simp
    · intro i h1 h2
      simp [Packed.splat]
  rw [hz, hz, ← List.map_append, Vector.toList_map, Vector.toList_map, ← List.map_append, h2, hz,
    List.map_map, List.map_map, List.map_map, List.map_map] at h4
  apply Vector.toList_inj.1
  rw [h4, Vector.toList_map]
  rfl

/-- **C108.** `high_latency` writes the scalar result of every element at its place, for any
slice and any buffer which is long enough. -/
theorem C108_latency {q : Nat} {o : LatencyOps q} (h : o.Lanewise) (c : Cfg) (fuel : Nat)
    (data buf : List (BitVec 32)) (hq : 0 < q) (hlen : data.length + 2 * q < c.usize)
    (hvec : 8 * q < c.usize) (hfuel : data.length / (2 * q) < fuel)
    (hbuf : data.length ≤ buf.length) :
    highLatency o c fuel data buf = ok (data.map latencyScalar ++ buf.drop data.length) := by
  unfold highLatency
  have e : (fun (_ : Unit) (v : Vector (BitVec 32) (2 * q)) => do ok (← latencyVec o v, ())) =
      pureFn (Vector.map latencyScalar) := by
    funext _ v
    simp [latencyVec_map h, pureFn]
  rw [e, C07_fill c fuel data _ _ buf (by omega) (by decide) rfl hlen
    (by simp only [Packable.size]; omega) hfuel hbuf]
  rfl

theorem scaled_value (m q e : Nat) : (1 : ℚ) * (((m * 2 ^ q : ℕ) : ℚ) / 2 ^ (q + e)) = m / 2 ^ e := by
  push_cast
  rw [pow_add]
  field_simp

theorem f32OneTwo_value : ieee f32OneTwo = .fin (10066330 / 2 ^ 23) := by
  have h2 : fnum f32OneTwo = 10066330 * 2 ^ 126 := by decide +kernel
  have h3 : fsign f32OneTwo = 1 := by
    unfold fsign
    rw [if_neg (by decide)]
  rw [ieee_fin (.inl rfl) (by decide), h2, h3, show fone 32 = 126 + 23 from rfl, scaled_value]
  norm_num

theorem f64Pi_value : ieee f64Pi = .fin (884279719003555 / 2 ^ 48) := by
  have h2 : fnum f64Pi = 884279719003555 * 2 ^ 1026 := by decide +kernel
  have h3 : fsign f64Pi = 1 := by
    unfold fsign
    rw [if_neg (by decide)]
  rw [ieee_fin (.inr rfl) (by decide), h2, h3, show fone 64 = 1026 + 48 from rfl, scaled_value]
  norm_num

theorem fmul_nan {n : Nat} (hn : n = 32 ∨ n = 64) {x : BitVec n} (y : BitVec n)
    (h : ieee x = .nan) : ieee (fmul x y) = .nan := by
  unfold fmul
  rw [if_pos (by rw [(fnan_iff hn x).2 h]; simp)]
  exact qnan_facts hn

theorem fconv_nan {n k : Nat} (hn : n = 32 ∨ n = 64) (hk : k = 32 ∨ k = 64) {x : BitVec n}
    (h : ieee x = .nan) : ieee (fconv k x : BitVec k) = .nan := by
  unfold fconv
  rw [if_pos ((fnan_iff hn x).2 h)]
  exact qnan_facts hk

/-- **C108**: every negative element gives NaN, so the benchmark, whose array holds
-123.456, writes nothing else. -/
theorem C108_negative {x : BitVec 32} {a : ℚ} (hx : ieee x = .fin a) (ha : a < 0) :
    ieee (latencyScalar x) = .nan := by
  have haR : (a : ℝ) < 0 := by exact_mod_cast ha
  obtain ⟨h1, -⟩ := fmul_spec (.inl rfl) hx f32OneTwo_value
  have hv : (a : ℝ) * ((10066330 / 2 ^ 23 : ℚ) : ℝ) < a := by
    push_cast
    norm_num
    linarith
  have hy : ieee (fmul x f32OneTwo) = .inf true ∨
      ∃ b : ℚ, ieee (fmul x f32OneTwo) = .fin b ∧ b < 0 := by
    have h2 := h1.2
    cases hr : ieee (fmul x f32OneTwo) with
    | nan => rw [hr] at h2; exact h2.elim
    | inf t =>
      left
      rw [← ((inf_iff (.inl rfl) _ t).1 hr).2, (h1.1 (by linarith)).2 (by linarith)]
    | fin b =>
      right
      exact ⟨b, rfl, lt_of_le_of_lt (isRoundOf_le h1 hr hx hv.le) ha⟩
  unfold latencyScalar
  refine fconv_nan (.inr rfl) (.inl rfl) (fmul_nan (.inr rfl) _ ?_)
  have hR := fsqrt_root (.inr rfl) (fconv 64 (fmul x f32OneTwo))
  unfold IsRoot at hR
  rw [(fconv_exact rfl rfl (fmul x f32OneTwo)).1] at hR
  rcases hy with hy | ⟨b, hy, hb⟩
  · rw [hy] at hR
    simpa using hR
  · rw [hy] at hR
    simpa [not_le.2 hb] using hR

/-- One rounding in a chain of relative errors. -/
theorem rel_step {n : Nat} (hn : n = 32 ∨ n = 64) {v : ℝ} {r : BitVec n} (h : IsRoundOf v r)
    {S lo hi : ℝ} (hS : 0 < S) (hlo : 0 < lo) (h1 : lo * S ≤ v) (h2 : v ≤ hi * S)
    (hN : fNormal n ≤ lo * S) (hL : hi * S < fLimit n) :
    ∃ b : ℚ, ieee r = .fin b ∧ lo * (1 - 1 / 2 ^ (mantBits n + 1)) * S ≤ b ∧
      (b : ℝ) ≤ hi * (1 + 1 / 2 ^ (mantBits n + 1)) * S := by
  have hv : 0 < v := lt_of_lt_of_le (mul_pos hlo hS) h1
  obtain ⟨b, hb, hrel⟩ := isRoundOf_rel hn h (by rw [abs_of_pos hv]; linarith)
    (by rw [abs_of_pos hv]; linarith)
  rw [abs_of_pos hv, abs_le] at hrel
  have hp : (1 : ℝ) / 2 ^ (mantBits n + 1) ≤ 1 := by
    rw [div_le_one (by positivity)]
    exact one_le_pow₀ (by norm_num)
  have hp0 : (0 : ℝ) ≤ 1 / 2 ^ (mantBits n + 1) := by positivity
  have e : v / 2 ^ (mantBits n + 1) = v * (1 / 2 ^ (mantBits n + 1)) := by ring
  rw [e] at hrel
  generalize (1 : ℝ) / 2 ^ (mantBits n + 1) = t at *
  refine ⟨b, hb, ?_, ?_⟩
  · have : lo * S * (1 - t) ≤ v * (1 - t) := mul_le_mul_of_nonneg_right h1 (by linarith)
    nlinarith [hrel.2]
  · have : v * (1 + t) ≤ hi * S * (1 + t) := mul_le_mul_of_nonneg_right h2 (by linarith)
    nlinarith [hrel.1]

theorem f64_range : (fNormal 64 : ℝ) ≤ 1 / 2 ^ 126 ∧ (2 : ℝ) ^ 100 ≤ fLimit 64 := by
  have hN : fNormal 64 = 1 / 2 ^ 1022 := by simp [fNormal]
  have hL : fLimit 64 = 2 ^ 1024 - 2 ^ 970 := by simp [fLimit]
  rw [hN, hL]
  constructor
  · exact one_div_le_one_div_of_le (by positivity) (pow_le_pow_right₀ (by norm_num) (by norm_num))
  · have h1 : (2 : ℝ) ^ 100 ≤ 2 ^ 970 := pow_le_pow_right₀ (by norm_num) (by norm_num)
    have h2 : (2 : ℝ) ^ 1024 = 2 ^ 970 * 2 ^ 54 := by rw [← pow_add]
    rw [h2]
    generalize (2 : ℝ) ^ 970 = y at h1 ⊢
    norm_num at h1 ⊢
    linarith

/-- **C108**: for positive elements which are neither tiny nor huge the result is
`π * √(1.2 * x)` with a relative error of at most 2^-22. -/
theorem C108_value {x : BitVec 32} {a : ℚ} (hx : ieee x = .fin a) (hlo : 1 / 2 ^ 100 ≤ a)
    (hhi : a ≤ 2 ^ 100) :
    ∃ r : ℚ, ieee (latencyScalar x) = .fin r ∧
      |(r : ℝ) - Real.pi * Real.sqrt (1.2 * a)| ≤ Real.pi * Real.sqrt (1.2 * a) / 2 ^ 22 := by
  have hN32 : fNormal 32 = 1 / 2 ^ 126 := by simp [fNormal]
  have hL32 : fLimit 32 = 2 ^ 128 - 2 ^ 103 := by simp [fLimit]
  obtain ⟨hN64, hL64⟩ := f64_range
  have hloR : (1 : ℝ) / 2 ^ 100 ≤ a := by
    have := (Rat.cast_le (K := ℝ)).2 hlo
    push_cast at this
    exact this
  have hhiR : (a : ℝ) ≤ 2 ^ 100 := by
    have := (Rat.cast_le (K := ℝ)).2 hhi
    push_cast at this
    exact this
  have ha : (0 : ℝ) < a := lt_of_lt_of_le (by positivity) hloR
  -- the first product
  obtain ⟨h1, -⟩ := fmul_spec (.inl rfl) hx f32OneTwo_value
  obtain ⟨b1, e1, l1, u1⟩ := rel_step (.inl rfl) h1 (S := 1.2 * a) (lo := 1 - 1 / 2 ^ 24)
    (hi := 1 + 1 / 2 ^ 24) (by positivity) (by norm_num)
    (by push_cast; norm_num; linarith) (by push_cast; norm_num; linarith)
    (by rw [hN32]; norm_num at hloR ⊢; linarith) (by rw [hL32]; norm_num at hhiR ⊢; linarith)
  rw [show mantBits 32 + 1 = 24 from rfl] at l1 u1
  -- the root
  have e2 : ieee (fconv 64 (fmul x f32OneTwo)) = .fin b1 := by
    rw [(fconv_exact rfl rfl (fmul x f32OneTwo)).1, e1]
  set S := Real.sqrt (1.2 * a) with hS
  have hA : (0 : ℝ) < 1.2 * a := by positivity
  have hS0 : 0 < S := Real.sqrt_pos.2 hA
  have hSS : S ^ 2 = 1.2 * a := Real.sq_sqrt hA.le
  have hSlo : 1 / 2 ^ 50 ≤ S := by
    apply Real.le_sqrt_of_sq_le
    norm_num at hloR ⊢
    linarith
  have hShi : S ≤ 2 ^ 51 := by
    rw [hS, Real.sqrt_le_left (by positivity)]
    norm_num at hhiR ⊢
    linarith
  have hb1 : (0 : ℝ) ≤ b1 := le_trans (by positivity) l1
  have r2 := fsqrt_root (.inr rfl) (fconv 64 (fmul x f32OneTwo))
  unfold IsRoot at r2
  rw [e2] at r2
  simp only [if_pos (show (0 : ℚ) ≤ b1 by exact_mod_cast hb1)] at r2
  have r2 := r2.1
  obtain ⟨b2, e3, l2, u2⟩ := rel_step (.inr rfl) r2 (S := S) (lo := 1 - 1 / 2 ^ 24)
    (hi := 1 + 1 / 2 ^ 24) hS0 (by norm_num)
    (by
      apply Real.le_sqrt_of_sq_le
      rw [mul_pow, hSS, sq]
      exact l1)
    (by
      rw [Real.sqrt_le_left (by positivity), mul_pow, hSS, sq]
      exact u1)
    (by refine le_trans hN64 ?_; norm_num at hSlo ⊢; linarith)
    (by refine lt_of_lt_of_le ?_ hL64; norm_num at hShi ⊢; linarith)
  rw [show mantBits 64 + 1 = 53 from rfl] at l2 u2
  -- the second product
  obtain ⟨h3, -⟩ := fmul_spec (.inr rfl) e3 f64Pi_value
  have hpi1 := Real.pi_gt_d20
  have hpi2 := Real.pi_lt_d20
  have hP1 : Real.pi * (1 - 1 / 2 ^ 53) ≤ ((884279719003555 / 2 ^ 48 : ℚ) : ℝ) := by
    push_cast
    norm_num at hpi2 ⊢
    linarith
  have hP2 : ((884279719003555 / 2 ^ 48 : ℚ) : ℝ) ≤ Real.pi * (1 + 1 / 2 ^ 53) := by
    push_cast
    norm_num at hpi1 ⊢
    linarith
  have hpS : 0 < Real.pi * S := mul_pos Real.pi_pos hS0
  have hpSlo : 1 / 2 ^ 50 ≤ Real.pi * S := by
    have : (1 : ℝ) ≤ Real.pi := by norm_num at hpi1; linarith
    nlinarith
  have hpShi : Real.pi * S ≤ 2 ^ 53 := by
    have h4 : Real.pi ≤ 4 := by norm_num at hpi2; linarith
    calc Real.pi * S ≤ 4 * 2 ^ 51 := mul_le_mul h4 hShi hS0.le (by norm_num)
      _ = 2 ^ 53 := by norm_num
  obtain ⟨b3, e4, l3, u3⟩ := rel_step (.inr rfl) h3 (S := Real.pi * S)
    (lo := (1 - 1 / 2 ^ 24) * (1 - 1 / 2 ^ 53) * (1 - 1 / 2 ^ 53))
    (hi := (1 + 1 / 2 ^ 24) * (1 + 1 / 2 ^ 53) * (1 + 1 / 2 ^ 53)) hpS (by norm_num)
    (by
      refine le_trans (le_of_eq ?_) (mul_le_mul l2 hP1 (mul_nonneg Real.pi_pos.le (by norm_num))
        (le_trans (by norm_num; positivity) l2))
      ring)
    (by
      refine le_trans (mul_le_mul u2 hP2 (by norm_num) (by positivity)) (le_of_eq ?_)
      ring)
    (by refine le_trans hN64 ?_; norm_num at hpSlo ⊢; linarith)
    (by refine lt_of_lt_of_le ?_ hL64; norm_num at hpShi ⊢; linarith)
  rw [show mantBits 64 + 1 = 53 from rfl] at l3 u3
  -- the conversion back
  obtain ⟨h5, -⟩ := fconv_spec (k := 32) (.inr rfl) (.inl rfl) e4
  obtain ⟨r, e5, l4, u4⟩ := rel_step (.inl rfl) h5 (S := Real.pi * S) hpS (by norm_num) l3 u3
    (by rw [hN32]; norm_num at hpSlo ⊢; linarith) (by rw [hL32]; norm_num at hpShi ⊢; linarith)
  rw [show mantBits 32 + 1 = 24 from rfl] at l4 u4
  refine ⟨r, e5, ?_⟩
  rw [abs_le]
  norm_num at l4 u4 ⊢
  constructor <;> linarith

/-- **C108**, the benchmark: any number of -123.456 fill the buffer with NaN. -/
theorem C108_benchmark {q : Nat} {o : LatencyOps q} (h : o.Lanewise) (c : Cfg) (N : Nat)
    (buf : List (BitVec 32)) (hq : 0 < q) (hlen : N + 2 * q < c.usize) (hvec : 8 * q < c.usize)
    (hbuf : buf.length = N) :
    ∃ out, highLatency o c (N + 1) (List.replicate N (0xC2F6E979#32)) buf = ok out ∧
      out.length = N ∧ ∀ y ∈ out, ieee y = .nan := by
  refine ⟨_, C108_latency h c (N + 1) _ buf hq (by simpa using hlen) hvec
    (by simpa using Nat.lt_succ_of_le (Nat.div_le_self N (2 * q))) (by simp [hbuf]), ?_, ?_⟩
  · simp [hbuf]
  · intro y hy
    simp only [List.map_replicate, List.length_replicate, List.drop_eq_nil_of_le hbuf.le,
      List.append_nil] at hy
    rw [(List.mem_replicate.1 hy).2]
    obtain ⟨a, ha, hb⟩ := f32_benchmark
    refine C108_negative ha ?_
    rw [abs_le] at hb
    norm_num at hb
    linarith [hb.2]

end Faster
