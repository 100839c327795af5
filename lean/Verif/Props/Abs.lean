import Verif.Lemmas.Cast
/-
Absolute values (C44).
-/
namespace Faster
open Res

variable {n w : Nat}

/-- Specification of `abs` for signed integers: every lane is the magnitude, read
as an unsigned number. -/
def IsAbs (v r : Vector (BitVec n) w) : Prop :=
  ∀ i (hi : i < w), (r[i].toNat : Int) = if v[i].toInt < 0 then -v[i].toInt else v[i].toInt

/-- Specification of `abs` for floats: the top bit of every lane is cleared and
every other bit kept. -/
def IsFloatAbs (v r : Vector (BitVec n) w) : Prop :=
  ∀ i (hi : i < w) k, k < n → r[i].getLsbD k = if k = n - 1 then false else v[i].getLsbD k

/-- The instances of `Abs`: all lanes in order; optimized integer versions use
PABS of the right size, float versions mask with all bits but the highest. -/
theorem absRows_facts : ∀ r ∈ absRows, r.idx = List.range r.width ∧ 0 < r.size ∧
    (r.kind = .i ∧ (r.mm = none ∨
        r.mm.bind Instr.abs = some (.abs (8 * r.size * r.width) (8 * r.size))) ∨
     r.kind = .f ∧ r.mm.bind Instr.abs = some (.and (8 * r.size * r.width)) ∧
        r.mask = 2 ^ (8 * r.size - 1) - 1) := by
  decide +kernel

theorem absRowsUnknown_facts : ∀ r ∈ absRowsUnknown, r.idx = List.range r.width ∧ 0 < r.size ∧
    (r.kind = .i ∨ r.kind = .f) := by
  decide +kernel

example : absRows.length = 13 ∧ absRowsUnknown.length = 13 := by decide
example : (absRows.filter fun r => r.kind = .i ∧ r.mm.isSome).length = 6 ∧
    (absRows.filter fun r => r.kind = .f).length = 4 := by decide

theorem isAbs_of (v r : Vector (BitVec n) w) (h : ∀ i (hi : i < w), r[i].toNat = v[i].toInt.natAbs) :
    IsAbs v r := by
  intro i hi
  rw [h i hi]
  split <;> omega

theorem absFallback_ok (kind : Kind) {idx : List Nat} (hidx : idx = List.range w)
    (v : Vector (BitVec n) w) :
    absFallback kind idx v =
      ok (v.map fun x => if kind = .f then fabsScalar x else absScalar x) := by
  subst hidx
  unfold absFallback
  refine newLanes_getElem _ (by simp) ?_
  intro i hi
  simp [extract_ok (v := v) hi]

/-- C44: every fallback returns the exact magnitude of every lane; it never
panics, in particular not for the smallest value. -/
theorem C44_int_fallback (r : AbsRow) (hr : r ∈ absRows ∨ r ∈ absRowsUnknown) (hk : r.kind = .i)
    (v : Vector (BitVec (8 * r.size)) r.width) :
    ∃ o, absFallback r.kind r.idx v = ok o ∧ IsAbs v o := by
  have hidx : r.idx = List.range r.width := by
    rcases hr with hr | hr
    · exact (absRows_facts r hr).1
    · exact (absRowsUnknown_facts r hr).1
  refine ⟨_, absFallback_ok _ hidx v, isAbs_of _ _ fun i hi => ?_⟩
  rw [Vector.getElem_map, if_neg (by simp [hk]), absScalar_toNat]

/-- C44: the PABS versions return the exact magnitude of every lane. -/
theorem C44_int_optimized (r : AbsRow) (hr : r ∈ absRows) (hk : r.kind = .i) (mm : Instr)
    (hm : r.mm = some mm) (v : Vector (BitVec (8 * r.size)) r.width) :
    ∃ o, absOptimized mm r.mask v = ok o ∧ IsAbs v o := by
  obtain ⟨-, h0, h⟩ := absRows_facts r hr
  have hi : mm.abs = some (.abs (8 * r.size * r.width) (8 * r.size)) := by
    rcases h with ⟨-, h | h⟩ | ⟨h, -⟩
    · rw [hm] at h; exact absurd h (by simp)
    · rw [hm] at h; exact h
    · rw [hk] at h; exact absurd h (by simp)
  refine ⟨v.map X86.absEpi, ?_, isAbs_of _ _ fun i hi => ?_⟩
  · simp only [absOptimized, hi, if_true]
    have hd : 8 * r.size * r.width / (8 * r.size) = r.width :=
      Nat.mul_div_cancel_left _ (by omega)
    have key : ∀ w', w' = r.width → (reinterpret ((reinterpret v :
        Vector (BitVec (8 * r.size)) w').map X86.absEpi) : Vector (BitVec (8 * r.size)) r.width) =
        v.map X86.absEpi := by
      intro w' h
      subst h
      rw [reinterpret_self, reinterpret_self]
    rw [key _ hd]
  · rw [Vector.getElem_map, absEpi_toNat]

/-- C44: the fallbacks of the float types clear exactly the sign bit. -/
theorem C44_float_fallback (r : AbsRow) (hr : r ∈ absRows ∨ r ∈ absRowsUnknown) (hk : r.kind = .f)
    (v : Vector (BitVec (8 * r.size)) r.width) :
    ∃ o, absFallback r.kind r.idx v = ok o ∧ IsFloatAbs v o := by
  have hidx : r.idx = List.range r.width := by
    rcases hr with hr | hr
    · exact (absRows_facts r hr).1
    · exact (absRowsUnknown_facts r hr).1
  refine ⟨_, absFallback_ok _ hidx v, fun i hi k hk' => ?_⟩
  rw [Vector.getElem_map, if_pos hk, fabsScalar_getLsbD _ hk']
  split <;> simp_all

/-- C44: the masking versions of the float types clear exactly the sign bit. -/
theorem C44_float_optimized (r : AbsRow) (hr : r ∈ absRows) (hk : r.kind = .f) (mm : Instr)
    (hm : r.mm = some mm) (v : Vector (BitVec (8 * r.size)) r.width) :
    ∃ o, absOptimized mm r.mask v = ok o ∧ IsFloatAbs v o := by
  obtain ⟨-, h0, h⟩ := absRows_facts r hr
  obtain ⟨hi, hmask⟩ : mm.abs = some (.and (8 * r.size * r.width)) ∧
      r.mask = 2 ^ (8 * r.size - 1) - 1 := by
    rcases h with ⟨h, -⟩ | ⟨-, h, h'⟩
    · rw [hk] at h; exact absurd h (by simp)
    · rw [hm] at h; exact ⟨h, h'⟩
  refine ⟨X86.lanewise (· &&& ·) v (Packed.splat (BitVec.ofNat _ r.mask)),
    by simp only [absOptimized, hi, if_true], fun i hi k hk' => ?_⟩
  simp only [X86.lanewise, Packed.splat, Vector.getElem_ofFn, Fin.getElem_fin,
    Vector.getElem_replicate, BitVec.getLsbD_and, hmask, BitVec.getLsbD_ofNat,
    Nat.testBit_two_pow_sub_one]
  split
  · rename_i h
    subst h
    simp
  · rename_i h
    simp [hk', show k < 8 * r.size - 1 by omega]

/-- C44: so each optimized version equals its fallback on every input. -/
theorem C44_agree (r : AbsRow) (hr : r ∈ absRows) (mm : Instr) (hm : r.mm = some mm)
    (v : Vector (BitVec (8 * r.size)) r.width) :
    absOptimized mm r.mask v = absFallback r.kind r.idx v := by
  have hk : r.kind = .i ∨ r.kind = .f := (absRows_facts r hr).2.2.imp And.left And.left
  rcases hk with hk | hk
  · obtain ⟨o, h1, h2⟩ := C44_int_optimized r hr hk mm hm v
    obtain ⟨o', h1', h2'⟩ := C44_int_fallback r (Or.inl hr) hk v
    rw [h1, h1']
    congr 1
    apply Vector.ext
    intro i hi
    have := h2 i hi
    have := h2' i hi
    exact BitVec.eq_of_toNat_eq (by omega)
  · obtain ⟨o, h1, h2⟩ := C44_float_optimized r hr hk mm hm v
    obtain ⟨o', h1', h2'⟩ := C44_float_fallback r (Or.inl hr) hk v
    rw [h1, h1']
    congr 1
    apply Vector.ext
    intro i hi
    apply BitVec.eq_of_getLsbD_eq
    intro k hk'
    rw [h2 i hi k hk', h2' i hi k hk']

/-- Non-vacuity: the magnitude of the smallest value needs the unsigned type. -/
example : IsAbs #v[-128#8, -1#8, 127#8] #v[128#8, 1#8, 127#8] := by
  unfold IsAbs; decide +kernel
example : IsFloatAbs #v[0xFFC00001#32] #v[0x7FC00001#32] := by
  unfold IsFloatAbs; decide +kernel

end Faster
