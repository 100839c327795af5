import Verif.Lemmas.Sum
import Verif.Props.Abs
import Verif.Props.Cast
/-
Sums of all lanes (C41) and exact sums in `i64` (C42).
-/
namespace Faster
open Res

variable {n w : Nat}

/-- Specification: the exact sum of the lanes. -/
def total (signed : Bool) (v : Vector (BitVec n) w) : Int := (v.toList.map (num signed)).sum

theorem total_eq (k : Kind) (v : Vector (BitVec n) w) :
    total k.signed v = (v.toList.map k.value).sum := by
  unfold total
  congr 2
  funext x
  exact num_eq k x

theorem ofInt_total (signed : Bool) (v : Vector (BitVec n) w) :
    BitVec.ofInt n (total signed v) = v.toList.sum := by
  unfold total
  apply sum_ofInt
  intro x
  cases signed
  · exact Kind.ofInt_value .u x
  · exact Kind.ofInt_value .i x

/-! ### Scalar fallbacks -/

/-- C41: the scalar fallback returns the sum modulo `2^n` in a release build. -/
theorem C41_fallback_release (c : Cfg) (hc : c.debug = false) (k : Kind) (v : Vector (BitVec n) w) :
    sumFallback c k v = ok (BitVec.ofInt n (total k.signed v)) := by
  unfold sumFallback
  rw [C53_scalar_reduce]
  have := foldlM_check_release c hc k (fun x : BitVec n => x) v.toList 0#n
  rw [this, ofInt_total]
  simp

/-- C41: the scalar fallback returns the sum in every build if no prefix sum
overflows. -/
theorem C41_fallback_fits (c : Cfg) (k : Kind) (h0 : 0 < n) (v : Vector (BitVec n) w)
    (h : ∀ j, j ≤ w → Fits k.signed n ((v.toList.take j).map (num k.signed)).sum) :
    sumFallback c k v = ok (BitVec.ofInt n (total k.signed v)) := by
  unfold sumFallback
  rw [C53_scalar_reduce]
  have hz : k.value 0#n = 0 := by cases k <;> simp [Kind.value]
  have hnum : (fun x : BitVec n => k.value x) = num k.signed := by funext x; exact (num_eq k x).symm
  have := foldlM_check_fits c k h0 (fun x : BitVec n => x) v.toList 0#n
  rw [this, ofInt_total]
  · simp
  · intro j _ hj
    rw [hz, Int.zero_add, hnum]
    exact (fits_iff k h0 _).mp (h j (by simpa using hj))

/-- C41: in a debug build it panics if some prefix sum overflows. -/
theorem C41_fallback_debug (c : Cfg) (hc : c.debug = true) (k : Kind) (h0 : 0 < n)
    (v : Vector (BitVec n) w) {j : Nat} (hj : j ≤ w)
    (h : ¬ Fits k.signed n ((v.toList.take j).map (num k.signed)).sum) :
    sumFallback c k v = panic := by
  unfold sumFallback
  rw [C53_scalar_reduce]
  have hz : k.value 0#n = 0 := by cases k <;> simp [Kind.value]
  have hnum : (fun x : BitVec n => k.value x) = num k.signed := by funext x; exact (num_eq k x).symm
  have hb := Kind.value_bounds k h0 0#n
  refine foldlM_check_panic c hc k h0 (fun x : BitVec n => x) v.toList 0#n j ?_ (by simpa using hj) ?_
  · rcases Nat.eq_zero_or_pos j with rfl | h'
    · exfalso
      apply h
      rw [fits_iff k h0]
      rw [hz] at hb
      simpa using hb
    · exact h'
  · rw [hz, Int.zero_add, hnum, ← fits_iff k h0]
    exact h

/-- C42: the fallback of `sum_upcast` is the exact sum for every 8-, 16- and
32-bit lane type and any realistic width; it never overflows. -/
theorem C42_fallback (c : Cfg) (k : Kind) (h0 : 0 < n) (hn : n ≤ 32) (hw : w ≤ 2 ^ 31)
    (v : Vector (BitVec n) w) :
    ∃ r, sumUpcastFallback c k v = ok r ∧ r.toInt = total k.signed v := by
  have hbound : ∀ j, j ≤ w → -2 ^ 63 ≤ ((v.toList.take j).map fun x => k.value x).sum ∧
      ((v.toList.take j).map fun x => k.value x).sum ≤ 2 ^ 63 - 1 := by
    intro j hj
    have hp : (2 : Int) ^ n ≤ 2 ^ 32 := by
      have : 2 ^ n ≤ 2 ^ 32 := Nat.pow_le_pow_right (by omega) hn
      exact_mod_cast this
    have hq : (2 : Int) ^ n = 2 * 2 ^ (n - 1) := two_pow_pred h0
    have := sum_bounds (v.toList.take j) (fun x => k.value x) (-2 ^ 31) (2 ^ 32 - 1) (by
      intro x _
      have hb := Kind.value_bounds k h0 x
      have hp0 : (0 : Int) < 2 ^ (n - 1) := Int.pow_pos (by omega)
      cases k <;> simp only [Kind.lo, Kind.hi] at hb <;> omega)
    have hl : ((v.toList.take j).length : Int) ≤ 2 ^ 31 := by
      have : (v.toList.take j).length ≤ w := by simp; omega
      omega
    have h1 : (-2 ^ 31 : Int) * 2 ^ 31 ≤ -2 ^ 31 * ((v.toList.take j).length : Int) :=
      Int.mul_le_mul_of_nonpos_left (by omega) hl
    have h2 : (2 ^ 32 - 1 : Int) * ((v.toList.take j).length : Int) ≤ (2 ^ 32 - 1) * 2 ^ 31 :=
      Int.mul_le_mul_of_nonneg_left hl (by omega)
    omega
  have hval : ∀ l : List (BitVec n), (l.map fun x => Kind.i.value (asI64 k x)).sum =
      (l.map fun x => k.value x).sum := by
    intro l
    congr 2
    funext x
    exact asI64_toInt k (by omega) x
  refine ⟨0#64 + (v.toList.map (asI64 k)).sum, ?_, ?_⟩
  · unfold sumUpcastFallback
    rw [C53_scalar_reduce]
    refine foldlM_check_fits c .i (by omega) (asI64 k) v.toList 0#64 ?_
    intro j _ hj
    rw [hval]
    have := hbound j (by simpa using hj)
    simpa [Kind.lo, Kind.hi, Kind.value] using this
  · have hs : 0#64 + (v.toList.map (asI64 k)).sum =
        BitVec.ofInt 64 ((v.toList.map fun x => k.value x).sum) := by
      rw [← hval, ← sum_ofInt (v.toList.map (asI64 k)) Kind.i.value (Kind.ofInt_value .i), List.map_map]
      simp [Function.comp_def]
    have hb := hbound w (Nat.le_refl _)
    rw [List.take_of_length_le (by simp)] at hb
    rw [hs, total_eq]
    exact Kind.value_ofInt .i (by omega) (by simpa [Kind.lo, Kind.hi] using hb)

/-! ### Bytes -/

theorem addLanes2 (c : Cfg) (x : Vector (BitVec 16) w) (h : 4 < w)
    (h0 : ∀ i (hi : i < w), i % 4 = 0 → (x[i].toNat : Int) ≤ 2040) :
    ∃ s, addLanes c .u x [0, 4] = ok s ∧ (s.toNat : Int) = x[0].toNat + x[4].toNat := by
  have a0 := h0 0 (by omega) rfl
  have a4 := h0 4 (by omega) rfl
  refine ⟨x[0] + x[4], ?_, by rw [BitVec.toNat_add]; omega⟩
  simp only [addLanes, extract_ok (v := x) (show 0 < w by omega), extract_ok (v := x) h,
    Res.ok_bind, List.foldlM_cons, List.foldlM_nil]
  rw [overflowCheck_fits (by simp only [Kind.value, Kind.lo, Kind.hi]; omega)]
  rfl

theorem addLanes4 (c : Cfg) (x : Vector (BitVec 16) w) (h : 12 < w)
    (h0 : ∀ i (hi : i < w), i % 4 = 0 → (x[i].toNat : Int) ≤ 2040) :
    ∃ s, addLanes c .u x [0, 4, 8, 12] = ok s ∧
      (s.toNat : Int) = x[0].toNat + x[4].toNat + x[8].toNat + x[12].toNat := by
  have a0 := h0 0 (by omega) rfl
  have a4 := h0 4 (by omega) rfl
  have a8 := h0 8 (by omega) rfl
  have a12 := h0 12 (by omega) rfl
  refine ⟨x[0] + x[4] + x[8] + x[12], ?_, by simp only [BitVec.toNat_add]; omega⟩
  simp only [addLanes, extract_ok (v := x) (show 0 < w by omega), extract_ok (v := x) h,
    extract_ok (v := x) (show 4 < w by omega), extract_ok (v := x) (show 8 < w by omega),
    Res.ok_bind, List.foldlM_cons, List.foldlM_nil]
  rw [overflowCheck_fits (by simp only [Kind.value, Kind.lo, Kind.hi]; omega)]
  simp only [Res.ok_bind]
  rw [overflowCheck_fits (by simp only [Kind.value, Kind.lo, Kind.hi, BitVec.toNat_add]; omega)]
  simp only [Res.ok_bind]
  rw [overflowCheck_fits (by simp only [Kind.value, Kind.lo, Kind.hi, BitVec.toNat_add]; omega)]
  rfl

/-- The SAD code shared by the unsigned byte sums. -/
theorem sad_total16 (c : Cfg) (v : Vector (BitVec 8) 16) :
    ∃ s, addLanes c .u (sadWords v) [0, 4] = ok s ∧ (s.toNat : Int) = total false v := by
  obtain ⟨s, h1, h2⟩ := addLanes2 c (sadWords v) (by omega) (by
    intro i hi h
    rw [sadWords_getElem v (g := i / 4) rfl hi (by omega)]
    exact (groupSum_bounds v _).2)
  refine ⟨s, h1, ?_⟩
  rw [h2, sadWords_getElem v (g := 0) rfl _ rfl, sadWords_getElem v (g := 1) rfl _ rfl]
  show _ = total Kind.u.signed v
  rw [total_eq, sum_eq_groups _ v 2 rfl]
  simp [List.range_succ]
  rfl

theorem sad_total32 (c : Cfg) (v : Vector (BitVec 8) 32) :
    ∃ s, addLanes c .u (sadWords v) [0, 4, 8, 12] = ok s ∧ (s.toNat : Int) = total false v := by
  obtain ⟨s, h1, h2⟩ := addLanes4 c (sadWords v) (by omega) (by
    intro i hi h
    rw [sadWords_getElem v (g := i / 4) rfl hi (by omega)]
    exact (groupSum_bounds v _).2)
  refine ⟨s, h1, ?_⟩
  rw [h2, sadWords_getElem v (g := 0) rfl _ rfl, sadWords_getElem v (g := 1) rfl _ rfl,
    sadWords_getElem v (g := 2) rfl _ rfl, sadWords_getElem v (g := 3) rfl _ rfl]
  show _ = total Kind.u.signed v
  rw [total_eq, sum_eq_groups _ v 4 rfl]
  simp [List.range_succ, ← Int.add_assoc]
  rfl

theorem ofInt_toNat16 (s : BitVec 16) : BitVec.ofInt 16 (s.toNat : Int) = s := by simp

/-- C41: `u8x16::sum` (SAD) is the sum modulo 256; no build panics. -/
theorem C41_u8x16 (c : Cfg) (v : Vector (BitVec 8) 16) :
    sumU8 c [0, 4] v = ok (BitVec.ofInt 8 (total false v)) := by
  obtain ⟨s, h1, h2⟩ := sad_total16 c v
  unfold sumU8
  rw [h1, ← h2, ← setWidth_ofInt (show 8 ≤ 16 by omega), ofInt_toNat16]
  rfl

/-- C41: `u8x32::sum` (SAD) is the sum modulo 256; no build panics. -/
theorem C41_u8x32 (c : Cfg) (v : Vector (BitVec 8) 32) :
    sumU8 c [0, 4, 8, 12] v = ok (BitVec.ofInt 8 (total false v)) := by
  obtain ⟨s, h1, h2⟩ := sad_total32 c v
  unfold sumU8
  rw [h1, ← h2, ← setWidth_ofInt (show 8 ≤ 16 by omega), ofInt_toNat16]
  rfl

/-- C42: `u8x16::sum_upcast` is the exact sum. -/
theorem C42_u8x16 (c : Cfg) (v : Vector (BitVec 8) 16) :
    ∃ r, sumUpcastU8 c [0, 4] v = ok r ∧ r.toInt = total false v := by
  obtain ⟨s, h1, h2⟩ := sad_total16 c v
  refine ⟨s.setWidth 64, by unfold sumUpcastU8; rw [h1]; rfl, ?_⟩
  rw [← h2]
  exact asI64_toInt .u (by omega) s

/-- C42: `u8x32::sum_upcast` is the exact sum. -/
theorem C42_u8x32 (c : Cfg) (v : Vector (BitVec 8) 32) :
    ∃ r, sumUpcastU8 c [0, 4, 8, 12] v = ok r ∧ r.toInt = total false v := by
  obtain ⟨s, h1, h2⟩ := sad_total32 c v
  refine ⟨s.setWidth 64, by unfold sumUpcastU8; rw [h1]; rfl, ?_⟩
  rw [← h2]
  exact asI64_toInt .u (by omega) s

/-- What `i8x16::sum` needs of `max`, `min` and `abs`: the statements of C51 and
C44. -/
structure I8Correct (o : I8Ops w) : Prop where
  max : ∀ a b, ∃ m, o.max a b = ok m ∧ ∀ i (hi : i < w), IsExtreme true true a[i] b[i] m[i]
  min : ∀ a b, ∃ m, o.min a b = ok m ∧ ∀ i (hi : i < w), IsExtreme true false a[i] b[i] m[i]
  abs : ∀ a, ∃ m, o.abs a = ok m ∧ IsAbs a m

/-- Every version of `min`, `max` and `abs` of the signed byte types, on every
target, is correct in this sense. -/
theorem i8Correct (c : Cfg) (rmax rmin : BinRow) (rabs : AbsRow) (o1 o2 o3 : Bool)
    (hmax : rmax ∈ cmpRows ∧ rmax.fn = .max ∧ rmax.kind = .i ∧ rmax.size = 1 ∧ rmax.width = w)
    (hmin : rmin ∈ cmpRows ∧ rmin.fn = .min ∧ rmin.kind = .i ∧ rmin.size = 1 ∧ rmin.width = w)
    (habs : rabs ∈ absRows ∧ rabs.kind = .i ∧ rabs.size = 1 ∧ rabs.width = w) :
    I8Correct (w := w) ⟨cmpOf c o1 rmax, cmpOf c o2 rmin, absOf o3 rabs⟩ := by
  constructor
  · obtain ⟨hr, hf, hk, hs, hw⟩ := hmax
    have h1 := C51_optimized rmax hr (by simp [hk])
    have h2 := C51_fallback c rmax (Or.inl hr) (by simp [hk])
    obtain ⟨vec, line, kind, size, width, fn, gate, mm, idx⟩ := rmax
    dsimp only at hf hk hs hw h1 h2 ⊢
    subst hf hk hs hw
    intro a b
    cases o1
    · exact h2 a b
    · exact h1 a b
  · obtain ⟨hr, hf, hk, hs, hw⟩ := hmin
    have h1 := C51_optimized rmin hr (by simp [hk])
    have h2 := C51_fallback c rmin (Or.inl hr) (by simp [hk])
    obtain ⟨vec, line, kind, size, width, fn, gate, mm, idx⟩ := rmin
    dsimp only at hf hk hs hw h1 h2 ⊢
    subst hf hk hs hw
    intro a b
    cases o2
    · exact h2 a b
    · exact h1 a b
  · obtain ⟨hr, hk, hs, hw⟩ := habs
    have h1 := C44_int_optimized rabs hr hk
    have h2 := C44_int_fallback rabs (Or.inl hr) hk
    obtain ⟨vec, line, kind, size, width, gate, mm, mask, idx⟩ := rabs
    dsimp only at hk hs hw h1 h2 ⊢
    subst hk hs hw
    intro a
    cases o3
    · exact h2 a
    · cases mm with
      | none => exact h2 a
      | some mm => exact h1 mm rfl a

/-- Non-vacuity: rows for both signed byte types exist. -/
example : ∀ w ∈ [16, 32],
    (∃ r ∈ cmpRows, r.fn = .max ∧ r.kind = .i ∧ r.size = 1 ∧ r.width = w) ∧
    (∃ r ∈ cmpRows, r.fn = .min ∧ r.kind = .i ∧ r.size = 1 ∧ r.width = w) ∧
    (∃ r ∈ absRows, r.kind = .i ∧ r.size = 1 ∧ r.width = w) := by decide +kernel

/-- Positive minus negative part, byte by byte. -/
theorem i8Parts {o : I8Ops w} (ho : I8Correct o) (v : Vector (BitVec 8) w) :
    ∃ p m q, o.max v (Packed.splat 0#8) = ok p ∧ o.min v (Packed.splat 0#8) = ok m ∧ o.abs m = ok q ∧
      ∀ i, ((X86.lane p i).toNat : Int) - (X86.lane q i).toNat = (X86.lane v i).toInt := by
  obtain ⟨p, hp, hp'⟩ := ho.max v (Packed.splat 0#8)
  obtain ⟨m, hm, hm'⟩ := ho.min v (Packed.splat 0#8)
  obtain ⟨q, hq, hq'⟩ := ho.abs m
  refine ⟨p, m, q, hp, hm, hq, fun i => ?_⟩
  by_cases hi : i < w
  · have h1 := (hp' i hi).2
    have h2 := (hm' i hi).2
    have h3 := hq' i hi
    simp only [num, Packed.splat, Vector.getElem_replicate, if_true, BitVec.toInt_zero,
      Bool.false_eq_true, if_false] at h1 h2
    have h4 := BitVec.toInt_eq_toNat_cond p[i]
    have := p[i].isLt
    simp only [X86.lane, Vector.getElem?_eq_getElem hi, Option.getD_some]
    split at h3 <;> split at h4 <;> omega
  · simp [X86.lane, hi]

theorem groupSum_parts {p q v : Vector (BitVec 8) w}
    (h : ∀ i, ((X86.lane p i).toNat : Int) - (X86.lane q i).toNat = (X86.lane v i).toInt) (g : Nat) :
    groupSum (fun x => (x.toNat : Int)) p g - groupSum (fun x => (x.toNat : Int)) q g =
      groupSum BitVec.toInt v g := by
  unfold groupSum
  rw [sum_sub]
  congr 2
  funext t
  exact h _

theorem sub_words {p q v : Vector (BitVec 8) w}
    (h : ∀ i, ((X86.lane p i).toNat : Int) - (X86.lane q i).toNat = (X86.lane v i).toInt)
    {g i : Nat} (hw : w % 8 = 0) (hi : i < w / 2) (hg : i = 4 * g) :
    (sadWords p)[i] - (sadWords q)[i] = BitVec.ofInt 16 (groupSum BitVec.toInt v g) := by
  rw [Kind.sub_eq .u]
  simp only [Kind.value]
  rw [sadWords_getElem p hw hi hg, sadWords_getElem q hw hi hg, groupSum_parts h]

theorem sad_signed16 {p q v : Vector (BitVec 8) 16}
    (h : ∀ i, ((X86.lane p i).toNat : Int) - (X86.lane q i).toNat = (X86.lane v i).toInt) :
    subLanes (sadWords p) (sadWords q) [0, 4] = ok (BitVec.ofInt 16 (total true v)) := by
  have he : ∀ (x : Vector (BitVec 16) (16 / 2)) (i : Nat) (hi : i < 8), Packed.extract x i = ok x[i] :=
    fun x i hi => extract_ok hi
  simp only [subLanes, he _ 0 (by omega), he _ 4 (by omega), Res.ok_bind, List.foldlM_cons,
    List.foldlM_nil]
  rw [sub_words h (g := 0) rfl _ rfl, sub_words h (g := 1) rfl _ rfl, ← BitVec.ofInt_add]
  show _ = ok (BitVec.ofInt 16 (total Kind.i.signed v))
  rw [total_eq, sum_eq_groups _ v 2 rfl]
  simp [List.range_succ]
  rfl

theorem sad_signed32 {p q v : Vector (BitVec 8) 32}
    (h : ∀ i, ((X86.lane p i).toNat : Int) - (X86.lane q i).toNat = (X86.lane v i).toInt) :
    subLanes (sadWords p) (sadWords q) [0, 4, 8, 12] = ok (BitVec.ofInt 16 (total true v)) := by
  have he : ∀ (x : Vector (BitVec 16) (32 / 2)) (i : Nat) (hi : i < 16), Packed.extract x i = ok x[i] :=
    fun x i hi => extract_ok hi
  simp only [subLanes, he _ 0 (by omega), he _ 4 (by omega), he _ 8 (by omega), he _ 12 (by omega),
    Res.ok_bind, List.foldlM_cons, List.foldlM_nil]
  rw [sub_words h (g := 0) rfl _ rfl, sub_words h (g := 1) rfl _ rfl, sub_words h (g := 2) rfl _ rfl,
    sub_words h (g := 3) rfl _ rfl, ← BitVec.ofInt_add, ← BitVec.ofInt_add, ← BitVec.ofInt_add]
  show _ = ok (BitVec.ofInt 16 (total Kind.i.signed v))
  rw [total_eq, sum_eq_groups _ v 4 rfl]
  simp [List.range_succ, ← Int.add_assoc]
  rfl

/-- C41: `i8x16::sum` is the sum modulo 256 in every build, whichever versions of
`max`, `min` and `abs` it is compiled with. -/
theorem C41_i8x16 {o : I8Ops 16} (ho : I8Correct o) (v : Vector (BitVec 8) 16) :
    sumI8 o [0, 4] v = ok (BitVec.ofInt 8 (total true v)) := by
  obtain ⟨p, m, q, hp, hm, hq, h⟩ := i8Parts ho v
  simp only [sumI8, hp, hm, hq, Res.ok_bind, sad_signed16 h, setWidth_ofInt (show 8 ≤ 16 by omega)]

/-- C41: `i8x32::sum` likewise. -/
theorem C41_i8x32 {o : I8Ops 32} (ho : I8Correct o) (v : Vector (BitVec 8) 32) :
    sumI8 o [0, 4, 8, 12] v = ok (BitVec.ofInt 8 (total true v)) := by
  obtain ⟨p, m, q, hp, hm, hq, h⟩ := i8Parts ho v
  simp only [sumI8, hp, hm, hq, Res.ok_bind, sad_signed32 h, setWidth_ofInt (show 8 ≤ 16 by omega)]

/-- The result of the signed byte `sum_upcast`s: the sum reduced to 8 bits. -/
theorem ofInt8_toInt_iff (x : Int) :
    ((BitVec.ofInt 8 x).signExtend 64).toInt = x ↔ -128 ≤ x ∧ x ≤ 127 := by
  rw [BitVec.toInt_signExtend_of_le (by omega)]
  constructor
  · intro h
    have := Kind.value_bounds .i (n := 8) (by omega) (BitVec.ofInt 8 x)
    simp only [Kind.value, Kind.lo, Kind.hi, h] at this
    omega
  · intro h
    exact Kind.value_ofInt .i (by omega) (by simp only [Kind.lo, Kind.hi]; omega)

/-- C42: `i8x16::sum_upcast` (SAD) returns the sum wrapped to 8 bits, so it is
exact if and only if the sum fits in `i8`. -/
theorem C42_i8x16 {o : I8Ops 16} (ho : I8Correct o) (v : Vector (BitVec 8) 16) :
    ∃ r, sumUpcastI8 o [0, 4] v = ok r ∧ r = (BitVec.ofInt 8 (total true v)).signExtend 64 ∧
      (r.toInt = total true v ↔ -128 ≤ total true v ∧ total true v ≤ 127) := by
  obtain ⟨p, m, q, hp, hm, hq, h⟩ := i8Parts ho v
  refine ⟨(BitVec.ofInt 8 (total true v)).signExtend 64, ?_, rfl, ofInt8_toInt_iff _⟩
  simp only [sumUpcastI8, hp, hm, hq, Res.ok_bind, sad_signed16 h, setWidth_ofInt (show 8 ≤ 16 by omega)]

/-- C42: `i8x32::sum_upcast` likewise. -/
theorem C42_i8x32 {o : I8Ops 32} (ho : I8Correct o) (v : Vector (BitVec 8) 32) :
    ∃ r, sumUpcastI8 o [0, 4, 8, 12] v = ok r ∧ r = (BitVec.ofInt 8 (total true v)).signExtend 64 ∧
      (r.toInt = total true v ↔ -128 ≤ total true v ∧ total true v ≤ 127) := by
  obtain ⟨p, m, q, hp, hm, hq, h⟩ := i8Parts ho v
  refine ⟨(BitVec.ofInt 8 (total true v)).signExtend 64, ?_, rfl, ofInt8_toInt_iff _⟩
  simp only [sumUpcastI8, hp, hm, hq, Res.ok_bind, sad_signed32 h, setWidth_ofInt (show 8 ≤ 16 by omega)]

/-- C42 is false for `i8x16` and `i8x32` with SSE2/AVX2: sixteen lanes of 100 add
up to 1600, `sum_upcast` returns 64; thirty-two give 3200 and -128. -/
theorem C42_false {o : I8Ops 16} (ho : I8Correct o) {o' : I8Ops 32} (ho' : I8Correct o') :
    sumUpcastI8 o [0, 4] (Packed.splat 100#8) = ok 64#64 ∧
    total true (Packed.splat 100#8 : Vector (BitVec 8) 16) = 1600 ∧
    sumUpcastI8 o' [0, 4, 8, 12] (Packed.splat 100#8) = ok (-128#64) ∧
    total true (Packed.splat 100#8 : Vector (BitVec 8) 32) = 3200 := by
  obtain ⟨r, h1, h2, -⟩ := C42_i8x16 ho (Packed.splat 100#8)
  obtain ⟨r', h1', h2', -⟩ := C42_i8x32 ho' (Packed.splat 100#8)
  have t1 : total true (Packed.splat 100#8 : Vector (BitVec 8) 16) = 1600 := by decide +kernel
  have t2 : total true (Packed.splat 100#8 : Vector (BitVec 8) 32) = 3200 := by decide +kernel
  rw [h1, h1', h2, h2', t1, t2]
  decide +kernel

/-! ### 16- and 32-bit lanes -/

/-- C41: `i16x8::sum` (three PHADDW) is the sum modulo 2^16; no build panics. -/
theorem C41_i16x8 (v : Vector (BitVec 16) 8) : sumI16x8 v = ok (BitVec.ofInt 16 (total true v)) := by
  rw [ofInt_total, sumI16x8, extract_lane _ (by omega), toList_eq_lanes]
  simp [hadd0_lane, List.range_succ, BitVec.add_assoc]

theorem haddSum16 (v : Vector (BitVec 16) 16) :
    X86.lane (hadd0 8 (hadd0 8 (hadd0 8 v))) 0 = (v.toList.take 8).sum ∧
    X86.lane (hadd0 8 (hadd0 8 (hadd0 8 v))) 8 = (v.toList.drop 8).sum := by
  rw [toList_eq_lanes]
  simp [hadd0_lane, List.range_succ, BitVec.add_assoc]

theorem haddSum32 (v : Vector (BitVec 32) 8) :
    X86.lane (hadd0 4 (hadd0 4 v)) 0 = (v.toList.take 4).sum ∧
    X86.lane (hadd0 4 (hadd0 4 v)) 4 = (v.toList.drop 4).sum := by
  rw [toList_eq_lanes]
  simp [hadd0_lane, List.range_succ, BitVec.add_assoc]

theorem addLanes_two (c : Cfg) (k : Kind) (x : Vector (BitVec n) w) {i j : Nat} (hi : i < w) (hj : j < w) :
    addLanes c k x [i, j] = overflowCheck c k (k.value (X86.lane x i) + k.value (X86.lane x j))
      (X86.lane x i + X86.lane x j) := by
  simp only [addLanes, extract_lane x hi, extract_lane x hj, Res.ok_bind, List.foldlM_cons,
    List.foldlM_nil]
  unfold overflowCheck
  split
  · rfl
  · split <;> rfl

instance (signed : Bool) (n : Nat) (x : Int) : Decidable (Fits signed n x) :=
  inferInstanceAs (Decidable (_ = _))

/-- The sum of `l` wrapped to a signed `n`-bit number. -/
def wrapped (l : List (BitVec n)) : Int := (l.map BitVec.toInt).sum.bmod (2 ^ n)

theorem sum_toInt (l : List (BitVec n)) : l.sum.toInt = wrapped l := by
  unfold wrapped
  rw [← BitVec.toInt_ofInt, sum_ofInt l BitVec.toInt (Kind.ofInt_value .i)]

/-- C41: `i16x16::sum` with AVX2 in every build: the sum modulo 2^16, except that
a debug build panics if adding the two wrapped sums of eight lanes overflows. -/
theorem C41_i16x16 (c : Cfg) (v : Vector (BitVec 16) 16) :
    sumI16x16 c v =
      (if c.debug = true ∧ ¬ Fits true 16 (wrapped (v.toList.take 8) + wrapped (v.toList.drop 8)) then panic
       else ok (BitVec.ofInt 16 (total true v))) := by
  have hs : (v.toList.take 8).sum + (v.toList.drop 8).sum = v.toList.sum := by
    rw [toList_eq_lanes]
    simp [List.range_succ, BitVec.add_assoc]
  unfold sumI16x16
  rw [addLanes_two c .i _ (by omega) (by omega), (haddSum16 v).1, (haddSum16 v).2, hs, ofInt_total]
  have hf := fits_iff .i (n := 16) (by omega) (wrapped (v.toList.take 8) + wrapped (v.toList.drop 8))
  simp only [Kind.signed] at hf
  simp only [overflowCheck, Kind.value, sum_toInt, ← hf]
  by_cases h1 : Fits true 16 (wrapped (v.toList.take 8) + wrapped (v.toList.drop 8)) <;>
    by_cases h2 : c.debug = true <;> simp [h1, h2]

/-- C41: `i32x8::sum` with AVX2, likewise with sums of four lanes. -/
theorem C41_i32x8 (c : Cfg) (v : Vector (BitVec 32) 8) :
    sumI32x8 c v =
      (if c.debug = true ∧ ¬ Fits true 32 (wrapped (v.toList.take 4) + wrapped (v.toList.drop 4)) then panic
       else ok (BitVec.ofInt 32 (total true v))) := by
  have hs : (v.toList.take 4).sum + (v.toList.drop 4).sum = v.toList.sum := by
    rw [toList_eq_lanes]
    simp [List.range_succ, BitVec.add_assoc]
  unfold sumI32x8
  rw [addLanes_two c .i _ (by omega) (by omega), (haddSum32 v).1, (haddSum32 v).2, hs, ofInt_total]
  have hf := fits_iff .i (n := 32) (by omega) (wrapped (v.toList.take 4) + wrapped (v.toList.drop 4))
  simp only [Kind.signed] at hf
  simp only [overflowCheck, Kind.value, sum_toInt, ← hf]
  by_cases h1 : Fits true 32 (wrapped (v.toList.take 4) + wrapped (v.toList.drop 4)) <;>
    by_cases h2 : c.debug = true <;> simp [h1, h2]

/-- C41 is false in debug builds for `i16x16` and `i32x8` with AVX2: on these
vectors the scalar fallback does not overflow, but `sum` panics. -/
theorem C41_false :
    sumI16x16 debug64 #v[32767, 0, 0, 0, 0, 0, 0, 0, -32768, -32767, 0, 0, 0, 0, 0, 0] = panic ∧
    sumFallback debug64 .i #v[32767, 0, 0, 0, 0, 0, 0, 0, -32768, -32767, 0, 0, 0, 0, 0, (0 : BitVec 16)] =
      ok (-32768) ∧
    sumI32x8 debug64 #v[2147483647, 0, 0, 0, -2147483648, -2147483647, 0, 0] = panic ∧
    sumFallback debug64 .i #v[2147483647, 0, 0, 0, -2147483648, -2147483647, 0, (0 : BitVec 32)] =
      ok (-2147483648) := by
  decide +kernel

/-- C41: `i16x16::sum` agrees with the fallback in release builds, and in every
build if the sums of both halves and of the whole fit. -/
theorem C41_i16x16_partial (c : Cfg) (v : Vector (BitVec 16) 16)
    (h : c.debug = false ∨
      Fits true 16 ((v.toList.take 8).map (num true)).sum ∧
      Fits true 16 ((v.toList.drop 8).map (num true)).sum ∧ Fits true 16 (total true v)) :
    sumI16x16 c v = ok (BitVec.ofInt 16 (total true v)) := by
  rw [C41_i16x16, if_neg]
  rintro ⟨h1, h2⟩
  rcases h with h | ⟨ha, hb, ht⟩
  · simp [h1] at h
  · apply h2
    have e : ∀ l : List (BitVec 16), Fits true 16 (l.map (num true)).sum →
        wrapped l = (l.map (num true)).sum := by
      intro l hl
      have hl := (fits_iff .i (n := 16) (by omega) _).mp hl
      rw [← sum_toInt, ← sum_ofInt l (num true) (Kind.ofInt_value .i)]
      exact Kind.value_ofInt .i (by omega) hl
    rw [e _ ha, e _ hb, ← List.sum_append, ← List.map_append, List.take_append_drop]
    exact ht

/-- C41: `i32x8::sum`, likewise. -/
theorem C41_i32x8_partial (c : Cfg) (v : Vector (BitVec 32) 8)
    (h : c.debug = false ∨
      Fits true 32 ((v.toList.take 4).map (num true)).sum ∧
      Fits true 32 ((v.toList.drop 4).map (num true)).sum ∧ Fits true 32 (total true v)) :
    sumI32x8 c v = ok (BitVec.ofInt 32 (total true v)) := by
  rw [C41_i32x8, if_neg]
  rintro ⟨h1, h2⟩
  rcases h with h | ⟨ha, hb, ht⟩
  · simp [h1] at h
  · apply h2
    have e : ∀ l : List (BitVec 32), Fits true 32 (l.map (num true)).sum →
        wrapped l = (l.map (num true)).sum := by
      intro l hl
      have hl := (fits_iff .i (n := 32) (by omega) _).mp hl
      rw [← sum_toInt, ← sum_ofInt l (num true) (Kind.ofInt_value .i)]
      exact Kind.value_ofInt .i (by omega) hl
    rw [e _ ha, e _ hb, ← List.sum_append, ← List.map_append, List.take_append_drop]
    exact ht

/-- What the 16-bit sums need of `upcast`: the statement of C45. -/
def UpCorrect (signed : Bool)
    (up : Vector (BitVec 16) 16 → Res (Vector (BitVec 32) 8 × Vector (BitVec 32) 8)) : Prop :=
  ∀ v, ∃ a b, up v = ok (a, b) ∧ IsUpcast signed v a b

/-- The upcasts of `i16x16` and `u16x16` are correct in this sense. -/
theorem upCorrect (r : UpRow) (hr : r ∈ upcastRows) (hk : r.toKind ≠ .f) (hs : r.size = 2)
    (hw : r.width = 16) (conv : BitVec 16 → BitVec 32) : UpCorrect r.kind.signed (upOf conv r) := by
  intro v
  have h1 := C45_optimized r hr hk
  have h2 := C45_fallback r (List.mem_append_left _ hr) hk
  obtain ⟨vec, to, line, kind, toKind, size, width, gate, mm, first, second⟩ := r
  dsimp only at hs hw h1 h2 ⊢
  subst hs hw
  unfold upOf
  cases mm with
  | none => exact h2 conv v
  | some mm => exact h1 mm rfl conv v

/-- Sums of few small numbers do not wrap. -/
theorem sum_small (l : List (BitVec 32)) (hl : l.length ≤ 16)
    (h : ∀ x ∈ l, -65536 ≤ x.toInt ∧ x.toInt ≤ 65535) :
    l.sum.toInt = (l.map BitVec.toInt).sum ∧ -1048576 ≤ l.sum.toInt ∧ l.sum.toInt ≤ 1048560 := by
  have hb := sum_bounds l BitVec.toInt (-65536) 65535 h
  have e : l.sum.toInt = (l.map BitVec.toInt).sum := by
    rw [← sum_ofInt l BitVec.toInt (Kind.ofInt_value .i)]
    exact Kind.value_ofInt .i (by omega) (by simp only [Kind.lo, Kind.hi]; omega)
  omega

/-- Adding two numbers below 2^24 does not overflow an `i32`. -/
theorem addI32_small (c : Cfg) (x y : BitVec 32) (h1 : -16777216 ≤ x.toInt) (h2 : x.toInt ≤ 16777216)
    (h3 : -16777216 ≤ y.toInt) (h4 : y.toInt ≤ 16777216) :
    overflowCheck c .i (x.toInt + y.toInt) (x + y) = ok (x + y) ∧
      (x + y).toInt = x.toInt + y.toInt := by
  have hf : Kind.i.lo 32 ≤ x.toInt + y.toInt ∧ x.toInt + y.toInt ≤ Kind.i.hi 32 := by
    simp only [Kind.lo, Kind.hi]; omega
  exact ⟨overflowCheck_fits hf, Kind.value_add .i (by omega) x y hf⟩

/-- Lanes of an upcast 16-bit vector as `i32` numbers. -/
theorem upcast_toInt (signed : Bool) {v : Vector (BitVec 16) 16} {a b : Vector (BitVec 32) 8}
    (h : IsUpcast signed v a b) {x : BitVec 32} (hx : x ∈ a.toList ++ b.toList) :
    num signed x = x.toInt ∧ -65536 ≤ x.toInt ∧ x.toInt ≤ 65535 := by
  have hnum : ∀ x : BitVec 16, -65536 ≤ num signed x ∧ num signed x ≤ 65535 := by
    intro x
    cases signed
    · have := Kind.value_bounds .u (by omega) x
      simp only [num, Kind.value, Kind.lo, Kind.hi, Bool.false_eq_true, if_false] at this ⊢
      omega
    · have := Kind.value_bounds .i (by omega) x
      simp only [num, Kind.value, Kind.lo, Kind.hi, if_true] at this ⊢
      omega
  have : num signed x ∈ v.toList.map (num signed) := by
    rw [← h]; exact List.mem_map_of_mem hx
  obtain ⟨y, -, hy⟩ := List.mem_map.mp this
  have hy' := hnum y
  cases signed
  · simp only [num, Bool.false_eq_true, if_false] at hy hy' ⊢
    have := BitVec.toInt_eq_toNat_cond x
    split at this <;> omega
  · simp only [num, if_true] at hy hy'
    exact ⟨rfl, by omega⟩

/-- Common part of the three 16-bit sums: the exact sum in an `i32`, no overflow. -/
theorem sum16x16_ok (c : Cfg) (signed : Bool) {up} (hup : UpCorrect signed up)
    (v : Vector (BitVec 16) 16) :
    ∃ s, sum16x16 c up v = ok s ∧ s.toInt = total signed v := by
  obtain ⟨a, b, h1, h2⟩ := hup v
  have htot : total signed v = ((a.toList ++ b.toList).map BitVec.toInt).sum := by
    unfold total
    rw [← h2]
    congr 1
    exact List.map_congr_left fun x hx => (upcast_toInt signed h2 hx).1
  have small : ∀ l : List (BitVec 32), l.length ≤ 16 → l ⊆ a.toList ++ b.toList →
      l.sum.toInt = (l.map BitVec.toInt).sum ∧ -1048576 ≤ l.sum.toInt ∧ l.sum.toInt ≤ 1048560 :=
    fun l hl hs => sum_small l hl fun x hx => (upcast_toInt signed h2 (hs hx)).2
  obtain ⟨s1, s1'⟩ := small (a.toList.take 4) (by simp) fun x hx =>
    List.mem_append_left _ (List.mem_of_mem_take hx)
  obtain ⟨s2, s2'⟩ := small (a.toList.drop 4) (by simp) fun x hx =>
    List.mem_append_left _ (List.mem_of_mem_drop hx)
  obtain ⟨s3, s3'⟩ := small (b.toList.take 4) (by simp) fun x hx =>
    List.mem_append_right _ (List.mem_of_mem_take hx)
  obtain ⟨s4, s4'⟩ := small (b.toList.drop 4) (by simp) fun x hx =>
    List.mem_append_right _ (List.mem_of_mem_drop hx)
  have d : ∀ l : List (BitVec 32), (l.map BitVec.toInt).sum =
      ((l.take 4).map BitVec.toInt).sum + ((l.drop 4).map BitVec.toInt).sum := by
    intro l
    rw [← List.sum_append, ← List.map_append, List.take_append_drop]
  rw [htot, List.map_append, List.sum_append, d a.toList, d b.toList, ← s1, ← s2, ← s3, ← s4]
  unfold sum16x16
  rw [h1]
  simp only [Res.ok_bind]
  rw [addLanes_two c .i _ (by omega) (by omega), (haddSum32 a).1, (haddSum32 a).2]
  simp only [extract_lane _ (show 0 < 8 by omega), extract_lane _ (show 4 < 8 by omega), (haddSum32 b).1,
    (haddSum32 b).2, Kind.value]
  generalize (a.toList.take 4).sum = p at *
  generalize (a.toList.drop 4).sum = q at *
  generalize (b.toList.take 4).sum = r at *
  generalize (b.toList.drop 4).sum = s at *
  obtain ⟨c1, d1⟩ := addI32_small c p q (by omega) (by omega) (by omega) (by omega)
  obtain ⟨c2, d2⟩ := addI32_small c (p + q) r (by omega) (by omega) (by omega) (by omega)
  obtain ⟨c3, d3⟩ := addI32_small c (p + q + r) s (by omega) (by omega) (by omega) (by omega)
  refine ⟨p + q + r + s, ?_, by omega⟩
  rw [c1]
  simp only [Res.ok_bind]
  rw [c2]
  simp only [Res.ok_bind]
  exact c3

/-- C41: `u16x16::sum` with AVX2 is the sum modulo 2^16; no build panics. -/
theorem C41_u16x16 (c : Cfg) {up} (hup : UpCorrect false up) (v : Vector (BitVec 16) 16) :
    sumU16x16 c up v = ok (BitVec.ofInt 16 (total false v)) := by
  obtain ⟨s, h1, h2⟩ := sum16x16_ok c false hup v
  unfold sumU16x16
  rw [h1, ← h2, ← setWidth_ofInt (show 16 ≤ 32 by omega)]
  simp

/-- C42: `i16x16::sum_upcast` and `u16x16::sum_upcast` with AVX2 are the exact sums. -/
theorem C42_16x16 (c : Cfg) (signed : Bool) {up} (hup : UpCorrect signed up)
    (v : Vector (BitVec 16) 16) :
    ∃ r, sumUpcast16x16 c up v = ok r ∧ r.toInt = total signed v := by
  obtain ⟨s, h1, h2⟩ := sum16x16_ok c signed hup v
  refine ⟨s.signExtend 64, by unfold sumUpcast16x16; rw [h1]; rfl, ?_⟩
  rw [BitVec.toInt_signExtend_of_le (by omega), h2]

/-- Non-vacuity: rows for both 16-bit types exist, and the sums are not constant. -/
example : ∀ k ∈ [Kind.i, Kind.u], ∃ r ∈ upcastRows, r.kind = k ∧ r.toKind = k ∧ r.size = 2 ∧
    r.width = 16 ∧ r.mm.isSome := by decide +kernel
example : sumI16x8 #v[1, 2, 3, 4, 5, 6, 7, -8] = ok 20 ∧
    sumU8 debug64 [0, 4] (Packed.splat 255#8 : Vector (BitVec 8) 16) = ok 240#8 ∧
    sumUpcastU8 debug64 [0, 4] (Packed.splat 255#8 : Vector (BitVec 8) 16) = ok 4080#64 ∧
    sumI32x8 debug64 #v[1, 2, 3, 4, 5, 6, 7, -8] = ok 20 := by decide +kernel

end Faster
