import Verif.Lemmas.Arith
/-
Saturating arithmetic (C39), horizontal operations (C40), equality masks (C50),
minima and maxima (C51).
-/
namespace Faster
open Res

variable {α : Type} {n w : Nat}

/-! ### Specifications -/

/-- The number a lane stands for in a signed (`i8`, …) or unsigned (`u8`, …) type. -/
def num (signed : Bool) (x : BitVec n) : Int := if signed then x.toInt else x.toNat

/-- The number nearest to `x` that fits in an `n`-bit lane. -/
def nearest (signed : Bool) (n : Nat) (x : Int) : Int :=
  if signed then max (-2 ^ (n - 1)) (min (2 ^ (n - 1) - 1) x) else max 0 (min (2 ^ n - 1) x)

/-- `x` fits in an `n`-bit lane. -/
def Fits (signed : Bool) (n : Nat) (x : Int) : Prop := nearest signed n x = x

/-- Integer vector types among the table rows are those with kind `u` or `i`. -/
def Kind.signed : Kind → Bool
  | .i => true
  | _ => false

theorem num_eq (k : Kind) (x : BitVec n) : num k.signed x = k.value x := by
  cases k <;> rfl

theorem nearest_eq (k : Kind) (x : Int) : nearest k.signed n x = k.clamp n x := by
  cases k <;> rfl

theorem fits_iff (k : Kind) (h0 : 0 < n) (x : Int) :
    Fits k.signed n x ↔ k.lo n ≤ x ∧ x ≤ k.hi n := by
  have := k.lo_le_hi h0
  unfold Fits
  rw [nearest_eq]
  unfold Kind.clamp
  omega

/-! ### C39: saturating addition and subtraction -/

/-- Every row of a saturating operation uses the instruction of the right kind
and size, and names all lanes in order. -/
theorem satAddRows_facts : ∀ r ∈ satAddRows, r.idx = List.range r.width ∧ 0 < r.size ∧
    r.kind ≠ .f ∧ r.fn = .saturating_add ∧
    r.mm.lanes = some ⟨8 * r.size * r.width, 8 * r.size, if r.kind = .i then .addsEpi else .addsEpu⟩ := by
  decide +kernel

theorem satSubRows_facts : ∀ r ∈ satSubRows, r.idx = List.range r.width ∧ 0 < r.size ∧
    r.kind ≠ .f ∧ r.fn = .saturating_sub ∧
    r.mm.lanes = some ⟨8 * r.size * r.width, 8 * r.size, if r.kind = .i then .subsEpi else .subsEpu⟩ := by
  decide +kernel

theorem satAddRowsUnknown_facts : ∀ r ∈ satAddRowsUnknown, r.idx = List.range r.width ∧
    0 < r.size ∧ r.kind ≠ .f ∧ r.fn = .saturating_add := by
  decide +kernel

theorem satSubRowsUnknown_facts : ∀ r ∈ satSubRowsUnknown, r.idx = List.range r.width ∧
    0 < r.size ∧ r.kind ≠ .f ∧ r.fn = .saturating_sub := by
  decide +kernel

example : satAddRows.length = 8 ∧ satSubRows.length = 8 := by decide
example : satAddRowsUnknown.length = 8 ∧ satSubRowsUnknown.length = 4 := by decide

theorem addsEpi_eq (k : Kind) (hk : k ≠ .f) (a b : BitVec n) :
    (if k = .i then X86.addsEpi a b else X86.addsEpu a b) =
      BitVec.ofInt n (k.clamp n (k.value a + k.value b)) := by
  cases k
  · simp [X86.addsEpu, satU_eq, Kind.value]
  · simp [X86.addsEpi, satS_eq, Kind.value]
  · exact absurd rfl hk

theorem subsEpi_eq (k : Kind) (hk : k ≠ .f) (a b : BitVec n) :
    (if k = .i then X86.subsEpi a b else X86.subsEpu a b) =
      BitVec.ofInt n (k.clamp n (k.value a - k.value b)) := by
  cases k
  · simp [X86.subsEpu, satU_eq, Kind.value]
  · simp [X86.subsEpi, satS_eq, Kind.value]
  · exact absurd rfl hk

/-- C39: the instruction used for every type returns the exact sum clamped to the
lane type, in every lane. -/
theorem C39_add_optimized (r : BinRow) (hr : r ∈ satAddRows)
    (a b : Vector (BitVec (8 * r.size)) r.width) :
    ∃ v, binaryInstr r.mm a b = ok v ∧ ∀ i (hi : i < r.width),
      num r.kind.signed v[i] =
        nearest r.kind.signed (8 * r.size) (num r.kind.signed a[i] + num r.kind.signed b[i]) := by
  obtain ⟨-, h0, hk, -, hl⟩ := satAddRows_facts r hr
  refine ⟨_, binaryInstr_eq hl rfl rfl (show 0 < 8 * r.size by omega) a b, ?_⟩
  intro i hi
  have : (X86.lanewise (if r.kind = .i then LaneOp.addsEpi else LaneOp.addsEpu).eval a b)[i] =
      BitVec.ofInt (8 * r.size) (r.kind.clamp (8 * r.size) (r.kind.value a[i] + r.kind.value b[i])) := by
    rw [← addsEpi_eq r.kind hk]
    simp only [X86.lanewise, Vector.getElem_ofFn]
    split <;> rfl
  rw [this, num_eq, num_eq, num_eq, nearest_eq,
    Kind.value_ofInt _ (by omega) (r.kind.clamp_bounds (by omega) _)]

theorem C39_sub_optimized (r : BinRow) (hr : r ∈ satSubRows)
    (a b : Vector (BitVec (8 * r.size)) r.width) :
    ∃ v, binaryInstr r.mm a b = ok v ∧ ∀ i (hi : i < r.width),
      num r.kind.signed v[i] =
        nearest r.kind.signed (8 * r.size) (num r.kind.signed a[i] - num r.kind.signed b[i]) := by
  obtain ⟨-, h0, hk, -, hl⟩ := satSubRows_facts r hr
  refine ⟨_, binaryInstr_eq hl rfl rfl (show 0 < 8 * r.size by omega) a b, ?_⟩
  intro i hi
  have : (X86.lanewise (if r.kind = .i then LaneOp.subsEpi else LaneOp.subsEpu).eval a b)[i] =
      BitVec.ofInt (8 * r.size) (r.kind.clamp (8 * r.size) (r.kind.value a[i] - r.kind.value b[i])) := by
    rw [← subsEpi_eq r.kind hk]
    simp only [X86.lanewise, Vector.getElem_ofFn]
    split <;> rfl
  rw [this, num_eq, num_eq, num_eq, nearest_eq,
    Kind.value_ofInt _ (by omega) (r.kind.clamp_bounds (by omega) _)]

theorem satAddScalar_num (k : Kind) (h0 : 0 < n) (a b : BitVec n) :
    num k.signed (satAddScalar k a b) = nearest k.signed n (num k.signed a + num k.signed b) := by
  rw [satAddScalar_eq k h0, num_eq, num_eq, num_eq, nearest_eq,
    Kind.value_ofInt _ h0 (k.clamp_bounds h0 _)]

theorem satSubScalar_num (k : Kind) (h0 : 0 < n) (a b : BitVec n) :
    num k.signed (satSubScalar k a b) = nearest k.signed n (num k.signed a - num k.signed b) := by
  rw [satSubScalar_eq k h0, num_eq, num_eq, num_eq, nearest_eq,
    Kind.value_ofInt _ h0 (k.clamp_bounds h0 _)]

/-- C39: the fallback versions (x86 without the feature, other targets) never
panic and return the clamped sum, in debug and release builds. -/
theorem C39_add_fallback (c : Cfg) (r : BinRow) (hr : r ∈ satAddRows ∨ r ∈ satAddRowsUnknown)
    (a b : Vector (BitVec (8 * r.size)) r.width) :
    ∃ v, binaryFallback (r.fn.eval c r.kind) r.idx a b = ok v ∧ ∀ i (hi : i < r.width),
      num r.kind.signed v[i] =
        nearest r.kind.signed (8 * r.size) (num r.kind.signed a[i] + num r.kind.signed b[i]) := by
  obtain ⟨hidx, h0, -, hfn⟩ : r.idx = List.range r.width ∧ 0 < r.size ∧ r.kind ≠ .f ∧
      r.fn = .saturating_add := by
    rcases hr with hr | hr
    · obtain ⟨h1, h2, h3, h4, -⟩ := satAddRows_facts r hr; exact ⟨h1, h2, h3, h4⟩
    · exact satAddRowsUnknown_facts r hr
  refine ⟨Vector.ofFn fun i => satAddScalar r.kind a[i] b[i],
    binaryFallback_ok hidx a b _ (by intro i hi; simp [hfn, Fn.eval]), ?_⟩
  intro i hi
  simp only [Vector.getElem_ofFn, Fin.getElem_fin]
  exact satAddScalar_num _ (by omega) _ _

theorem C39_sub_fallback (c : Cfg) (r : BinRow) (hr : r ∈ satSubRows ∨ r ∈ satSubRowsUnknown)
    (a b : Vector (BitVec (8 * r.size)) r.width) :
    ∃ v, binaryFallback (r.fn.eval c r.kind) r.idx a b = ok v ∧ ∀ i (hi : i < r.width),
      num r.kind.signed v[i] =
        nearest r.kind.signed (8 * r.size) (num r.kind.signed a[i] - num r.kind.signed b[i]) := by
  obtain ⟨hidx, h0, -, hfn⟩ : r.idx = List.range r.width ∧ 0 < r.size ∧ r.kind ≠ .f ∧
      r.fn = .saturating_sub := by
    rcases hr with hr | hr
    · obtain ⟨h1, h2, h3, h4, -⟩ := satSubRows_facts r hr; exact ⟨h1, h2, h3, h4⟩
    · exact satSubRowsUnknown_facts r hr
  refine ⟨Vector.ofFn fun i => satSubScalar r.kind a[i] b[i],
    binaryFallback_ok hidx a b _ (by intro i hi; simp [hfn, Fn.eval]), ?_⟩
  intro i hi
  simp only [Vector.getElem_ofFn, Fin.getElem_fin]
  exact satSubScalar_num _ (by omega) _ _

/-- Non-vacuity: both kinds of saturation happen. -/
example : num true (satAddScalar .i 100#8 100#8) = 127 ∧ num false (satAddScalar .u 200#8 100#8) = 255 ∧
    num true (satSubScalar .i (-100#8) 100#8) = -128 ∧ num false (satSubScalar .u 1#8 2#8) = 0 := by
  decide

/-! ### C51: minimum and maximum -/

theorem cmpRows_facts : ∀ r ∈ cmpRows, r.kind ≠ .f → r.idx = List.range r.width ∧ 0 < r.size ∧
    (r.fn = .min ∧ r.mm.lanes = some ⟨8 * r.size * r.width, 8 * r.size, if r.kind = .i then .minEpi else .minEpu⟩ ∨
     r.fn = .max ∧ r.mm.lanes = some ⟨8 * r.size * r.width, 8 * r.size, if r.kind = .i then .maxEpi else .maxEpu⟩) := by
  decide +kernel

theorem cmpRowsUnknown_facts : ∀ r ∈ cmpRowsUnknown, r.kind ≠ .f → r.idx = List.range r.width ∧
    0 < r.size ∧ (r.fn = .min ∨ r.fn = .max) := by
  decide +kernel

example : (cmpRows.filter fun r => r.kind ≠ .f).length = 24 := by decide
example : (cmpRowsUnknown.filter fun r => r.kind ≠ .f).length = 24 := by decide
/-- Every integer type has one row for `min` and one for `max`. -/
example : ∀ r ∈ cmpRows, ∃ r' ∈ cmpRows, r'.vec = r.vec ∧
    (r.fn = .min ∧ r'.fn = .max ∨ r.fn = .max ∧ r'.fn = .min) := by decide +kernel

/-- Specification: the smaller (`big = false`) or larger of two lanes. -/
def IsExtreme (signed big : Bool) (a b r : BitVec n) : Prop :=
  (r = a ∨ r = b) ∧
    num signed r = if big then max (num signed a) (num signed b) else min (num signed a) (num signed b)

theorem minEpi_extreme (k : Kind) (hk : k ≠ .f) (a b : BitVec n) :
    IsExtreme k.signed false a b (if k = .i then X86.minEpi a b else X86.minEpu a b) := by
  cases k
  · simp only [X86.minEpu, IsExtreme, num, Kind.signed, BitVec.ult, decide_eq_true_eq]
    simp only [reduceCtorEq, if_false, Bool.false_eq_true]
    split <;> simp <;> omega
  · simp only [X86.minEpi, IsExtreme, num, Kind.signed, BitVec.slt, decide_eq_true_eq]
    simp only [if_true, Bool.false_eq_true, if_false]
    split <;> simp <;> omega
  · exact absurd rfl hk

theorem maxEpi_extreme (k : Kind) (hk : k ≠ .f) (a b : BitVec n) :
    IsExtreme k.signed true a b (if k = .i then X86.maxEpi a b else X86.maxEpu a b) := by
  cases k
  · simp only [X86.maxEpu, IsExtreme, num, Kind.signed, BitVec.ult, decide_eq_true_eq]
    simp only [reduceCtorEq, if_false, if_true, Bool.false_eq_true]
    split <;> simp <;> omega
  · simp only [X86.maxEpi, IsExtreme, num, Kind.signed, BitVec.slt, decide_eq_true_eq]
    simp only [if_true]
    split <;> simp <;> omega
  · exact absurd rfl hk

/-- C51: the instruction used for every integer type returns the minimum or
maximum of its order in every lane. -/
theorem C51_optimized (r : BinRow) (hr : r ∈ cmpRows) (hk : r.kind ≠ .f)
    (a b : Vector (BitVec (8 * r.size)) r.width) :
    ∃ v, binaryInstr r.mm a b = ok v ∧ ∀ i (hi : i < r.width),
      IsExtreme r.kind.signed (r.fn == .max) a[i] b[i] v[i] := by
  obtain ⟨-, h0, h⟩ := cmpRows_facts r hr hk
  rcases h with ⟨hfn, hl⟩ | ⟨hfn, hl⟩
  · refine ⟨_, binaryInstr_eq hl rfl rfl (show 0 < 8 * r.size by omega) a b, fun i hi => ?_⟩
    have := minEpi_extreme r.kind hk a[i] b[i]
    rw [hfn]
    simp only [X86.lanewise, Vector.getElem_ofFn]
    revert this
    split <;> exact id
  · refine ⟨_, binaryInstr_eq hl rfl rfl (show 0 < 8 * r.size by omega) a b, fun i hi => ?_⟩
    have := maxEpi_extreme r.kind hk a[i] b[i]
    rw [hfn]
    simp only [X86.lanewise, Vector.getElem_ofFn]
    revert this
    split <;> exact id

/-- C51: the fallbacks likewise, in every build and on every target. -/
theorem C51_fallback (c : Cfg) (r : BinRow) (hr : r ∈ cmpRows ∨ r ∈ cmpRowsUnknown)
    (hk : r.kind ≠ .f) (a b : Vector (BitVec (8 * r.size)) r.width) :
    ∃ v, binaryFallback (r.fn.eval c r.kind) r.idx a b = ok v ∧ ∀ i (hi : i < r.width),
      IsExtreme r.kind.signed (r.fn == .max) a[i] b[i] v[i] := by
  obtain ⟨hidx, h0, hfn⟩ : r.idx = List.range r.width ∧ 0 < r.size ∧ (r.fn = .min ∨ r.fn = .max) := by
    rcases hr with hr | hr
    · obtain ⟨h1, h2, h⟩ := cmpRows_facts r hr hk
      exact ⟨h1, h2, h.imp And.left And.left⟩
    · exact cmpRowsUnknown_facts r hr hk
  rcases hfn with hfn | hfn
  · refine ⟨Vector.ofFn fun i => if r.kind.value b[i] < r.kind.value a[i] then b[i] else a[i],
      binaryFallback_ok hidx a b _ (by intro i hi; simp [hfn, Fn.eval, hk]), fun i hi => ?_⟩
    simp only [Vector.getElem_ofFn, Fin.getElem_fin, IsExtreme, num_eq, hfn]
    split <;> simp <;> omega
  · refine ⟨Vector.ofFn fun i => if r.kind.value b[i] < r.kind.value a[i] then a[i] else b[i],
      binaryFallback_ok hidx a b _ (by intro i hi; simp [hfn, Fn.eval, hk]), fun i hi => ?_⟩
    simp only [Vector.getElem_ofFn, Fin.getElem_fin, IsExtreme, num_eq, hfn]
    split <;> simp <;> omega

theorem num_inj (signed : Bool) {a b : BitVec n} (h : num signed a = num signed b) : a = b := by
  cases signed
  · simp only [num, Bool.false_eq_true, if_false] at h
    exact BitVec.eq_of_toNat_eq (by omega)
  · exact BitVec.eq_of_toInt_eq h

/-- C51: smaller and larger lane together are the two inputs, as multisets; in
particular `min + max = a + b` lane by lane. -/
theorem C51_multiset (signed : Bool) (a b lo hi : BitVec n) (hlo : IsExtreme signed false a b lo)
    (hhi : IsExtreme signed true a b hi) : [lo, hi].Perm [a, b] ∧ lo + hi = a + b := by
  have key : (lo = a ∧ hi = b) ∨ (lo = b ∧ hi = a) := by
    obtain ⟨hl, hl'⟩ := hlo
    obtain ⟨hh, hh'⟩ := hhi
    simp only [Bool.false_eq_true, if_false, if_true] at hl' hh'
    rcases Int.le_total (num signed a) (num signed b) with h | h
    · exact Or.inl ⟨num_inj signed (by omega), num_inj signed (by omega)⟩
    · exact Or.inr ⟨num_inj signed (by omega), num_inj signed (by omega)⟩
  rcases key with ⟨rfl, rfl⟩ | ⟨rfl, rfl⟩
  · exact ⟨List.Perm.refl _, rfl⟩
  · exact ⟨List.Perm.swap .., BitVec.add_comm ..⟩

/-- Non-vacuity: signed and unsigned order differ. -/
example : IsExtreme true false (255#8) 1#8 255#8 ∧ IsExtreme false false (255#8) 1#8 1#8 := by
  unfold IsExtreme; decide

/-! ### C50: equality masks -/

theorem eqRows_facts : ∀ r ∈ eqRows, r.kind ≠ .f → r.idx = List.range r.width ∧ 0 < r.size ∧
    r.fn = .eq ∧ r.mm.lanes = some ⟨8 * r.size * r.width, 8 * r.size, .cmpeqEpi⟩ := by
  decide +kernel

theorem eqRowsUnknown_facts : ∀ r ∈ eqRowsUnknown, r.kind ≠ .f → r.idx = List.range r.width ∧
    0 < r.size ∧ r.fn = .eq := by
  decide +kernel

example : (eqRows.filter fun r => r.kind ≠ .f).length = 16 := by decide
example : (eqRowsUnknown.filter fun r => r.kind ≠ .f).length = 8 := by decide

/-- Specification of `eq_mask` for integer lanes. -/
def IsEqMask (a b v : Vector (BitVec n) w) : Prop :=
  ∀ i (hi : i < w), (a[i] = b[i] → ∀ k, k < n → v[i].getLsbD k = true) ∧
    (a[i] ≠ b[i] → ∀ k, k < n → v[i].getLsbD k = false)

/-- C50: `cmpeq` sets exactly the lanes that are equal. -/
theorem C50_optimized (r : BinRow) (hr : r ∈ eqRows) (hk : r.kind ≠ .f)
    (a b : Vector (BitVec (8 * r.size)) r.width) :
    ∃ v, binaryInstr r.mm a b = ok v ∧ IsEqMask a b v := by
  obtain ⟨-, h0, -, hl⟩ := eqRows_facts r hr hk
  refine ⟨_, binaryInstr_eq hl rfl rfl (show 0 < 8 * r.size by omega) a b, fun i hi => ?_⟩
  simp only [X86.lanewise, Vector.getElem_ofFn, LaneOp.eval, X86.cmpeqEpi, Fin.getElem_fin]
  constructor
  · intro h k hk'
    rw [if_pos h]; simp [hk']
  · intro h k hk'
    rw [if_neg h]; simp

/-- C50: the fallback sets exactly the lanes that are equal. -/
theorem C50_fallback (c : Cfg) (r : BinRow) (hr : r ∈ eqRows ∨ r ∈ eqRowsUnknown)
    (hk : r.kind ≠ .f) (a b : Vector (BitVec (8 * r.size)) r.width) :
    ∃ v, binaryFallback (r.fn.eval c r.kind) r.idx a b = ok v ∧ IsEqMask a b v := by
  obtain ⟨hidx, h0, hfn⟩ : r.idx = List.range r.width ∧ 0 < r.size ∧ r.fn = .eq := by
    rcases hr with hr | hr
    · obtain ⟨h1, h2, h3, -⟩ := eqRows_facts r hr hk
      exact ⟨h1, h2, h3⟩
    · exact eqRowsUnknown_facts r hr hk
  refine ⟨Vector.ofFn fun i => if a[i] = b[i] then BitVec.allOnes _ else 0#_,
    binaryFallback_ok hidx a b _ (by intro i hi; simp [hfn, Fn.eval, hk]), fun i hi => ?_⟩
  simp only [Vector.getElem_ofFn, Fin.getElem_fin]
  constructor
  · intro h k hk'
    rw [if_pos h]; simp [hk']
  · intro h k hk'
    rw [if_neg h]; simp

/-- C50: `ne_mask` is the bitwise complement of `eq_mask`, for any lane type. -/
theorem C50_ne (v : Vector (BitVec n) w) (i : Nat) (hi : i < w) (k : Nat) (hk : k < n) :
    ((neMask v)[i]).getLsbD k = !(v[i].getLsbD k) := by
  simp [neMask, ones, Packed.splat, hk]

/-- Non-vacuity: a mask with both kinds of lanes. -/
example : IsEqMask #v[1#8, 2#8] #v[1#8, 3#8] #v[255#8, 0#8] := by
  unfold IsEqMask
  decide +kernel

end Faster
