import Verif.Props.FloatArith
import Verif.Props.Cast
/-
C103, C104: casts to and from float vectors.
-/
namespace Faster
open Res

variable {n k w w' : Nat}

/-! ### Numbers with few digits are floats -/

theorem exists_funits {m : Nat} (k : Nat) : ∀ {r : Nat}, r ≤ 2 ^ (m + 1) →
    ∃ t, funits m t = r * 2 ^ k := by
  induction k with
  | zero => intro r hr; exact ⟨_, funits_level (k := 0) hr (.inl rfl)⟩
  | succ k ih =>
    intro r hr
    rcases Nat.lt_or_ge r (2 ^ m) with h | h
    · obtain ⟨t, ht⟩ := ih (r := 2 * r) (by rw [Nat.pow_succ]; omega)
      exact ⟨t, by rw [ht, Nat.pow_succ]; ring⟩
    · exact ⟨_, funits_level hr (.inr h)⟩

/-- A number of at most `mantBits + 1` binary digits times a power of two is a float. -/
theorem exists_float (hn : n = 32 ∨ n = 64) (neg : Bool) {r k : Nat} (hr : r ≤ 2 ^ (mantBits n + 1))
    (hlt : r * 2 ^ k < funits (mantBits n) (infBits n)) :
    ∃ y : BitVec n, y.msb = neg ∧
      ieee y = .fin ((if neg then -1 else 1) * (((r * 2 ^ k : ℕ) : ℚ) / 2 ^ fone n)) := by
  obtain ⟨t, ht⟩ := exists_funits k hr
  obtain ⟨-, -, -, hhalf, -⟩ := fLimit_units hn
  have hti : t < infBits n := by
    by_contra hc
    have := (funits_strictMono (mantBits n)).monotone (not_lt.mp hc)
    omega
  obtain ⟨h1, h2⟩ := ofNat_sign_mag (n := n) (by omega) neg (mag := t) (by omega)
  refine ⟨_, h1, ?_⟩
  rw [ieee_fin hn (by omega)]
  unfold fnum fsign
  rw [h1, h2, ht]

/-! ### C103: upcasts to float -/

set_option exponentiation.threshold 3000 in
/-- Every `f32` is an `f64`. -/
theorem fconv_exact (hn : n = 32) (hk : k = 64) (x : BitVec n) :
    ieee (fconv k x : BitVec k) = ieee x ∧
    (ieee x ≠ .nan → (fconv k x : BitVec k).msb = x.msb) := by
  subst hn hk
  cases hx : ieee x with
  | nan =>
    refine ⟨?_, fun h => absurd rfl h⟩
    unfold fconv
    rw [if_pos ((fnan_iff (.inl rfl) x).2 hx)]
    exact qnan_facts (.inr rfl)
  | inf t =>
    obtain ⟨h1, rfl⟩ := (inf_iff (.inl rfl) x t).1 hx
    have hnan : ¬ fnan x = true := by rw [fnan_iff (.inl rfl), hx]; simp
    unfold fconv
    rw [if_neg hnan, if_pos h1]
    obtain ⟨h2, -, h3⟩ := finf_facts (n := 64) (.inr rfl) x.msb
    exact ⟨h3, fun _ => h2⟩
  | fin a =>
    obtain ⟨h1, h2⟩ := fconv_spec (k := 64) (.inl rfl) (.inr rfl) hx
    refine ⟨?_, fun _ => h2⟩
    obtain ⟨hlt, ha⟩ := fin_ieee (.inl rfl) hx
    -- the value in units of the wider format
    have hu : ∃ r j, r ≤ 2 ^ 24 ∧ j ≤ 253 ∧ fnum x = r * 2 ^ j := by
      have hlt' : fmag x < 255 * 2 ^ 23 := hlt
      unfold fnum funits
      change ∃ r j, _ ∧ _ ∧ (if fmag x / 2 ^ 23 = 0 then fmag x
        else (2 ^ 23 + fmag x % 2 ^ 23) * 2 ^ (fmag x / 2 ^ 23 - 1)) = _
      split
      · exact ⟨fmag x, 0, by omega, by omega, by simp⟩
      · exact ⟨_, _, by omega, by omega, rfl⟩
    obtain ⟨r, j, hr, hj, he⟩ := hu
    have hb : r * 2 ^ (j + 925) < funits (mantBits 64) (infBits 64) := by
      have h2 : funits (mantBits 64) (infBits 64) = 2 ^ 2098 := by decide +kernel
      rw [h2]
      calc r * 2 ^ (j + 925) ≤ 2 ^ 24 * 2 ^ (j + 925) := Nat.mul_le_mul_right _ hr
        _ = 2 ^ (24 + (j + 925)) := (Nat.pow_add ..).symm
        _ < 2 ^ 2098 := Nat.pow_lt_pow_right (by omega) (by omega)
    obtain ⟨y, hy1, hy2⟩ := exists_float (n := 64) (.inr rfl) x.msb (r := r) (k := j + 925)
      (hr.trans (Nat.pow_le_pow_right (by omega) (by decide))) hb
    have hval : (if x.msb then -1 else 1 : ℚ) * (((r * 2 ^ (j + 925) : ℕ) : ℚ) / 2 ^ fone 64) = a := by
      rw [ha, he]
      unfold fsign
      have e1 : fone 64 = 149 + 925 := rfl
      have e2 : fone 32 = 149 := rfl
      rw [e1, e2]
      generalize 925 = q, 149 = p
      rw [pow_add 2 p q, pow_add 2 j q, ← Nat.mul_assoc, Nat.cast_mul _ (2 ^ q), Nat.cast_pow, Nat.cast_ofNat,
        mul_div_mul_right _ _ (by positivity)]
    rw [hval] at hy2
    exact isRoundOf_exact (.inr rfl) hy2 h1

/-- Integers of few digits convert exactly. -/
theorem fofInt_exact (hk : k = 32 ∨ k = 64) {z : ℤ} (hz : z.natAbs ≤ 2 ^ (mantBits k + 1)) :
    ieee (fofInt k z) = .fin z := by
  have hb : z.natAbs * 2 ^ fone k < funits (mantBits k) (infBits k) := by
    refine lt_of_le_of_lt (Nat.mul_le_mul_right _ hz) ?_
    rcases hk with rfl | rfl <;> decide +kernel
  obtain ⟨y, -, hy⟩ := exists_float hk (decide (z < 0)) hz hb
  have hval : (if decide (z < 0) then -1 else 1 : ℚ) *
      (((z.natAbs * 2 ^ fone k : ℕ) : ℚ) / 2 ^ fone k) = z := by
    have hu : (0 : ℚ) < 2 ^ fone k := by positivity
    rw [Nat.cast_mul, Nat.cast_natAbs, Int.cast_abs]
    push_cast
    rw [mul_div_assoc, div_self hu.ne', mul_one]
    by_cases h' : z < 0
    · rw [abs_of_neg (by exact_mod_cast h')]; simp [h']
    · rw [abs_of_nonneg (by exact_mod_cast not_lt.mp h')]; simp [h']
  rw [hval] at hy
  refine isRoundOf_exact hk hy ?_
  have := fofInt_spec hk z
  exact_mod_cast this

/-- Value of a lane: IEEE 754 or two's complement. -/
def laneValue (kind : Kind) (x : BitVec n) : FVal :=
  if kind = .f then ieee x else .fin x.toInt

theorem upcastFloat_facts : ∀ r ∈ upcastRows ++ upcastRowsUnknown, r.toKind = .f →
    8 * r.size = 32 ∧ 16 * r.size = 64 ∧ (r.kind = .f ∨ r.kind = .i) := by decide +kernel

example : ((upcastRows ++ upcastRowsUnknown).filter fun r => r.toKind = .f).length = 12 := by decide

theorem laneValue_widen {kind : Kind} (hk : kind = .f ∨ kind = .i) (hn : n = 32) (h64 : k = 64)
    (x : BitVec n) : ieee (widen (toFloat kind) kind .f x : BitVec k) = laneValue kind x ∧
      (kind = .f → ieee x ≠ .nan → (widen (toFloat kind) kind .f x : BitVec k).msb = x.msb) := by
  unfold widen laneValue toFloat
  rw [if_pos rfl]
  rcases hk with rfl | rfl
  · rw [if_pos rfl, if_pos rfl]
    have := fconv_exact hn h64 x
    exact ⟨this.1, fun _ => this.2⟩
  · rw [if_neg (by simp), if_neg (by simp)]
    refine ⟨?_, by simp⟩
    subst hn h64
    refine fofInt_exact (.inr rfl) ?_
    have h1 := BitVec.toInt_lt (x := x)
    have h2 := BitVec.le_toInt (x := x)
    have : (2 : ℕ) ^ (mantBits 64 + 1) = 2 ^ 53 := rfl
    rw [this]
    omega

/-- Specification of `upcast` to float lanes: the same values in order; zeros and
infinities keep their signs. -/
def IsFloatUpcast (kind : Kind) (v : Vector (BitVec n) w) (a b : Vector (BitVec k) w') : Prop :=
  (a.toList ++ b.toList).map ieee = v.toList.map (laneValue kind) ∧
  (kind = .f → ∀ j (h : j < v.toList.length) (h' : j < (a.toList ++ b.toList).length),
    ieee v.toList[j] ≠ .nan → (a.toList ++ b.toList)[j].msb = v.toList[j].msb)

theorem isFloatUpcast_of {kind : Kind} (hk : kind = .f ∨ kind = .i) (hn : n = 32) (h64 : k = 64)
    {v : Vector (BitVec n) w} {a b : Vector (BitVec k) w'}
    (h : a.toList ++ b.toList = v.toList.map (widen (toFloat kind) kind .f)) :
    IsFloatUpcast kind v a b := by
  refine ⟨?_, fun hf j h1 h2 hx => ?_⟩
  · rw [h, List.map_map]
    congr 1
    funext x
    exact (laneValue_widen hk hn h64 x).1
  · simp only [h, List.getElem_map]
    exact (laneValue_widen hk hn h64 _).2 hf hx

/-- **C103**: every version of `upcast` from `f32` and `i32` vectors to `f64` vectors
keeps every value exactly and in order. -/
theorem C103_fallback (r : UpRow) (hr : r ∈ upcastRows ++ upcastRowsUnknown) (hf : r.toKind = .f)
    (v : Vector (BitVec (8 * r.size)) r.width) :
    ∃ a b : Vector (BitVec (16 * r.size)) (r.width / 2),
      upcastFallback (widen (toFloat r.kind) r.kind r.toKind) r.first r.second v = ok (a, b) ∧
      IsFloatUpcast r.kind v a b := by
  obtain ⟨h1, h2, h3⟩ := upcastFloat_facts r hr hf
  obtain ⟨a, b, h4, h5⟩ := C45_order_fallback r hr (toFloat r.kind) v
  rw [hf] at h4 h5 ⊢
  exact ⟨a, b, h4, isFloatUpcast_of h3 h1 h2 h5⟩

/-- **C103**, with the conversion instructions. -/
theorem C103_optimized (r : UpRow) (hr : r ∈ upcastRows) (hf : r.toKind = .f) (mm : Instr)
    (hm : r.mm = some mm) (v : Vector (BitVec (8 * r.size)) r.width) :
    ∃ a b : Vector (BitVec (16 * r.size)) (r.width / 2),
      upcastInstr (toFloat r.kind) mm v = ok (a, b) ∧ IsFloatUpcast r.kind v a b := by
  obtain ⟨h1, h2, h3⟩ := upcastFloat_facts r (List.mem_append_left _ hr) hf
  obtain ⟨a, b, h4, h5⟩ := C45_order_optimized r hr mm hm (toFloat r.kind) v
  rw [hf] at h5
  exact ⟨a, b, h4, isFloatUpcast_of h3 h1 h2 h5⟩

/-! ### C104: downcasts to `f32` -/

/-- Largest finite `f32`. -/
def f32Max : ℚ := 2 ^ 128 - 2 ^ 104

theorem fin_le_f32Max {x : BitVec 32} {a : ℚ} (hx : ieee x = .fin a) : |a| ≤ f32Max := by
  obtain ⟨hlt, rfl⟩ := fin_ieee (.inl rfl) hx
  have hs : |fsign x| = 1 := by unfold fsign; split <;> simp
  rw [abs_mul, hs, one_mul, abs_of_nonneg (by positivity), div_le_iff₀ (by positivity)]
  have h1 : fnum x ≤ funits (mantBits 32) (infBits 32 - 1) :=
    (funits_strictMono _).monotone (by omega)
  have h2 : funits (mantBits 32) (infBits 32 - 1) = (2 ^ 24 - 1) * 2 ^ 253 := by decide +kernel
  rw [h2] at h1
  have h3 : (fnum x : ℚ) ≤ (((2 ^ 24 - 1) * 2 ^ 253 : ℕ) : ℚ) := by exact_mod_cast h1
  refine h3.trans (le_of_eq ?_)
  unfold f32Max
  rw [show fone 32 = 149 from rfl]
  norm_num

theorem f32Max_float : ieee (0x7F7FFFFF#32) = .fin f32Max ∧ ieee (0xFF7FFFFF#32) = .fin (-f32Max) := by
  have h2 : fnum (0x7F7FFFFF#32) = (2 ^ 24 - 1) * 2 ^ 253 := by decide +kernel
  have h3 : fnum (0xFF7FFFFF#32) = (2 ^ 24 - 1) * 2 ^ 253 := by decide +kernel
  have e : (((2 ^ 24 - 1) * 2 ^ 253 : ℕ) : ℚ) / 2 ^ fone 32 = f32Max := by
    unfold f32Max
    rw [show fone 32 = 149 from rfl]
    norm_num
  constructor
  · rw [ieee_fin (.inl rfl) (by decide), h2, e]
    norm_num [fsign, BitVec.msb_eq_decide]
  · rw [ieee_fin (.inl rfl) (by decide), h3, e]
    norm_num [fsign, BitVec.msb_eq_decide]

/-- What the documentation asks of a lane of `saturating_downcast`
(src/intrin/downcast.rs:9-14): the nearest `f32`; "If an element exceeds the maximum or
minimum value of the downcast type, it is saturated". -/
def IsSaturated (v : ℝ) (y : BitVec 32) : Prop :=
  if (f32Max : ℝ) < v then ieee y = .fin f32Max
  else if v < -(f32Max : ℝ) then ieee y = .fin (-f32Max)
  else IsRoundOf v y

/-- What a lane is: nearest, or infinite beyond the limit. -/
def IsNarrowed (x : BitVec 64) (y : BitVec 32) : Prop :=
  match ieee x with
  | .nan => ieee y = .nan
  | .inf s => ieee y = .inf s
  | .fin v => IsRoundOf v y ∧ y.msb = x.msb

theorem fconv_narrowed (x : BitVec 64) : IsNarrowed x (fconv 32 x) := by
  unfold IsNarrowed
  split
  · rename_i h
    unfold fconv
    rw [if_pos ((fnan_iff (.inr rfl) x).2 h)]
    exact qnan_facts (.inl rfl)
  · rename_i t h
    obtain ⟨h1, rfl⟩ := (inf_iff (.inr rfl) x t).1 h
    have hnan : ¬ fnan x = true := by rw [fnan_iff (.inr rfl), h]; simp
    unfold fconv
    rw [if_neg hnan, if_pos h1]
    exact (finf_facts (.inl rfl) x.msb).2.2
  · rename_i h
    exact fconv_spec (.inr rfl) (.inl rfl) h

theorem downcastFloat_facts : ∀ r ∈ downcastRows ++ downcastRowsUnknown, r.kind = .f →
    r.size = 4 ∧ r.mm = none ∧ r.lanes.map DownLane.self =
      List.replicate r.width true ++ List.replicate r.width false ∧
    r.lanes.map DownLane.idx = List.range r.width ++ List.range r.width := by decide +kernel

example : ((downcastRows ++ downcastRowsUnknown).filter fun r => r.kind = .f).length = 4 := by decide

theorem downcastFloat_ok {lanes : List DownLane} (hs : lanes.map DownLane.self =
      List.replicate w true ++ List.replicate w false)
    (hi : lanes.map DownLane.idx = List.range w ++ List.range w) (a b : Vector (BitVec n) w) :
    ∃ o : Vector (BitVec k) (2 * w), downcastFloat lanes a b = ok o ∧
      o.toList = (a.toList ++ b.toList).map (fconv k) := by
  have hlen : lanes.length = 2 * w := by
    have := congrArg List.length hs
    simp at this
    omega
  have hL : ((a.toList ++ b.toList).map (fconv (n := n) k)).length = 2 * w := by simp; omega
  refine ⟨⟨((a.toList ++ b.toList).map (fconv k)).toArray, by simp; omega⟩, ?_, by simp⟩
  unfold downcastFloat
  refine newLanes_getElem _ (by simpa using hlen) ?_
  intro j hj
  have e1 : lanes[j].self = decide (j < w) := by
    have := congrArg (·[j]?) hs
    simp only [List.getElem?_map, List.getElem?_eq_getElem (show j < lanes.length by omega),
      Option.map_some] at this
    by_cases hw : j < w
    · rw [List.getElem?_append_left (by simpa using hw)] at this
      simp [hw] at this ⊢
      exact this
    · rw [List.getElem?_append_right (by simpa using hw)] at this
      simp [hw, List.getElem?_replicate] at this ⊢
      exact this.2
  have e2 : lanes[j].idx = if j < w then j else j - w := by
    have := congrArg (·[j]?) hi
    simp only [List.getElem?_map, List.getElem?_eq_getElem (show j < lanes.length by omega),
      Option.map_some] at this
    by_cases hw : j < w
    · rw [List.getElem?_append_left (by simpa using hw)] at this
      simpa [hw] using this
    · rw [List.getElem?_append_right (by simpa using hw)] at this
      simp [hw, List.getElem?_range (show j - w < w by omega)] at this ⊢
      exact this
  rw [List.getElem_map, e1, e2]
  by_cases hw : j < w
  · simp [hw, extract_ok]
  · have hg : (List.map (fconv k) (a.toList ++ b.toList))[j]'(by simp; omega) =
        fconv k (b[j - w]'(by omega)) := by
      simp only [List.getElem_map]
      rw [List.getElem_append_right (by simp; omega)]
      simp
    simp only [hw, decide_false, Bool.false_eq_true, if_false, extract_ok, show j - w < w by omega]
    simpa [extract_ok, show j - w < w by omega] using hg.symm

/-- **C104** (part): every lane is the nearest `f32`, in order; it is the saturated value
exactly if the number is below 2^128 - 2^103. (Partial: larger numbers become infinite
instead of the largest `f32`.) -/
theorem C104_downcast_partial (r : DownRow) (hr : r ∈ downcastRows ++ downcastRowsUnknown)
    (hk : r.kind = .f) (a b : Vector (BitVec 64) r.width) :
    r.mm = none ∧ ∃ o : Vector (BitVec 32) (2 * r.width), downcastFloat r.lanes a b = ok o ∧
      ∀ j (h : j < (a.toList ++ b.toList).length) (h' : j < 2 * r.width),
        IsNarrowed (a.toList ++ b.toList)[j] o[j] ∧
        ∀ v : ℚ, ieee (a.toList ++ b.toList)[j] = .fin v →
          (IsSaturated v o[j] ↔ |(v : ℝ)| < 2 ^ 128 - 2 ^ 103) := by
  obtain ⟨h4, hm, hs, hi⟩ := downcastFloat_facts r hr hk
  obtain ⟨o, h1, h2⟩ := downcastFloat_ok (k := 32) hs hi a b
  refine ⟨hm, o, h1, fun j h h' => ?_⟩
  have e : o[j] = fconv 32 (a.toList ++ b.toList)[j] := by
    have : o.toList[j]'(by simpa using h') = o[j] := by simp
    rw [← this]
    simp only [h2, List.getElem_map]
  rw [e]
  generalize (a.toList ++ b.toList)[j] = x
  have hx := fconv_narrowed x
  refine ⟨hx, fun v hv => ?_⟩
  unfold IsNarrowed at hx
  rw [hv] at hx
  obtain ⟨hx, -⟩ := hx
  generalize (fconv 32 x : BitVec 32) = y at *
  have hlim : fLimit 32 = 2 ^ 128 - 2 ^ 103 := by simp [fLimit]
  rw [← hlim]
  have hmax : (f32Max : ℝ) = 2 ^ 128 - 2 ^ 104 := by unfold f32Max; push_cast; ring
  have hml : (f32Max : ℝ) < fLimit 32 := by rw [hmax, hlim]; norm_num
  have hm0 : (0 : ℝ) < f32Max := by rw [hmax]; norm_num
  have h2 := hx.2
  constructor
  · intro hsat
    by_contra hc
    have hfin : ∃ c, ieee y = .fin c := by
      unfold IsSaturated at hsat
      split at hsat
      · exact ⟨_, hsat⟩
      · split at hsat
        · exact ⟨_, hsat⟩
        · exfalso
          rename_i h3 h4
          have : |(v : ℝ)| ≤ f32Max := abs_le.mpr ⟨not_lt.mp h4, not_lt.mp h3⟩
          linarith
    obtain ⟨c, hc'⟩ := hfin
    rw [hc'] at h2
    exact hc h2.1
  · intro hlt
    unfold IsSaturated
    split
    · rename_i h3
      cases hy : ieee y with
      | nan => rw [hy] at h2; exact h2.elim
      | inf _ => rw [hy] at h2; linarith
      | fin c =>
        rw [hy] at h2
        have hb := fin_le_f32Max hy
        have hn := h2.2.1 _ _ f32Max_float.1
        have hc : c ≤ f32Max := (abs_le.mp hb).2
        have hc' : (c : ℝ) ≤ f32Max := by exact_mod_cast hc
        rw [abs_of_nonneg (by linarith), abs_of_nonneg (by linarith)] at hn
        congr 1
        have : (f32Max : ℝ) ≤ c := by linarith
        exact le_antisymm hc (by exact_mod_cast this)
    · split
      · rename_i h3
        cases hy : ieee y with
        | nan => rw [hy] at h2; exact h2.elim
        | inf _ => rw [hy] at h2; linarith
        | fin c =>
          rw [hy] at h2
          have hb := fin_le_f32Max hy
          have hn := h2.2.1 _ _ f32Max_float.2
          have hc : -f32Max ≤ c := (abs_le.mp hb).1
          have hc' : -(f32Max : ℝ) ≤ c := by exact_mod_cast hc
          push_cast at hn
          rw [abs_of_nonpos (by linarith), abs_of_nonpos (by linarith)] at hn
          congr 1
          have : (c : ℝ) ≤ -(f32Max : ℝ) := by linarith
          exact le_antisymm (by exact_mod_cast this) hc
      · exact hx

/-- **C104** is false: the lanes of `f64x2(2^1023).saturating_downcast(…)` are infinite;
likewise in every other version. -/
theorem C104_false (r : DownRow) (hr : r ∈ downcastRows ++ downcastRowsUnknown)
    (hk : r.kind = .f) : ∃ (a : Vector (BitVec 64) r.width) (o : Vector (BitVec 32) (2 * r.width)),
    (∀ x ∈ a.toList, ieee x = .fin (2 ^ 1023)) ∧
    downcastFloat r.lanes a a = ok o ∧ o ≠ Vector.replicate _ (0x7F7FFFFF#32) ∧
    ∀ (j : Nat) (h : j < 2 * r.width), ieee o[j] = .inf false ∧ ¬ IsSaturated (2 ^ 1023) o[j] := by
  have hval : ieee (0x7FE0000000000000#64) = .fin (2 ^ 1023) := by
    have h2 : fnum (0x7FE0000000000000#64) = 2 ^ (1023 + 1074) := by decide +kernel
    have h3 : fsign (0x7FE0000000000000#64) = 1 := by
      unfold fsign
      rw [if_neg (by decide)]
    have h4 : fone 64 = 1074 := rfl
    rw [ieee_fin (.inr rfl) (by decide), h2, h3, h4, one_mul]
    generalize 1074 = p, 1023 = q
    rw [pow_add, Nat.cast_mul, Nat.cast_pow, Nat.cast_pow, Nat.cast_ofNat,
      mul_div_cancel_right₀ _ (by positivity)]
  obtain ⟨-, o, h1, h2⟩ := C104_downcast_partial r hr hk
    (Vector.replicate _ 0x7FE0000000000000#64) (Vector.replicate _ 0x7FE0000000000000#64)
  have hw : 0 < r.width := by
    revert hr
    have : ∀ r ∈ downcastRows ++ downcastRowsUnknown, 0 < r.width := by decide +kernel
    exact this r
  have hbig : ¬ |(((2 : ℚ) ^ 1023 : ℚ) : ℝ)| < 2 ^ 128 - 2 ^ 103 := by
    rw [Rat.cast_pow, abs_of_nonneg (by positivity), not_lt, Rat.cast_ofNat]
    have : (2 : ℝ) ^ 128 ≤ 2 ^ 1023 := pow_le_pow_right₀ (by norm_num) (by norm_num)
    refine le_trans ?_ this
    norm_num
  have hall : ∀ (j : Nat) (h : j < 2 * r.width), ieee o[j] = .inf false ∧
      ¬ IsSaturated (2 ^ 1023) o[j] := by
    intro j hj
    obtain ⟨h3, h4⟩ := h2 j (by simp; omega) hj
    have hx : ((Vector.replicate r.width 0x7FE0000000000000#64).toList ++
        (Vector.replicate r.width 0x7FE0000000000000#64).toList)[j]'(by simp; omega) =
          0x7FE0000000000000#64 := by
      simp
    rw [hx] at h3 h4
    have h5 := h4 _ hval
    rw [Rat.cast_pow, Rat.cast_ofNat] at h5 hbig
    refine ⟨?_, fun hs => hbig (h5.1 hs)⟩
    unfold IsNarrowed at h3
    rw [hval] at h3
    obtain ⟨⟨h6, h7⟩, h8⟩ := h3
    cases hy : ieee o[j] with
    | nan => rw [hy] at h7; exact h7.elim
    | fin c =>
      rw [hy] at h7
      have := h7.1
      rw [Rat.cast_pow, Rat.cast_ofNat] at this
      have hl : fLimit 32 = 2 ^ 128 - 2 ^ 103 := by simp [fLimit]
      rw [hl] at this
      exact absurd this hbig
    | inf s =>
      have := ((inf_iff (.inl rfl) _ s).1 hy).2
      rw [h8] at this
      rw [← this]
      congr 1
  refine ⟨_, o, ?_, h1, ?_, hall⟩
  · intro x hx
    simp only [Vector.toList_replicate, List.mem_replicate] at hx
    rw [hx.2, hval]
  · rintro rfl
    have := (hall 0 (by omega)).1
    rw [Vector.getElem_replicate, f32Max_float.1] at this
    cases this

theorem narrow_back {x : BitVec 32} {y : BitVec 64} (h : ieee x ≠ .nan) (h1 : ieee y = ieee x)
    (h3 : y.msb = x.msb) : fconv 32 y = x := by
  have hx := fconv_narrowed y
  unfold IsNarrowed at hx
  rw [h1] at hx
  refine (bits_eq_of_ieee (.inl rfl) h ?_ ?_).symm
  · cases hv : ieee x with
    | nan => exact absurd hv h
    | inf t =>
      rw [hv] at hx
      rw [((inf_iff (.inl rfl) _ t).1 hx).2, ((inf_iff (.inl rfl) _ t).1 hv).2]
    | fin v => rw [hv] at hx; rw [hx.2, h3]
  · cases hv : ieee x with
    | nan => exact absurd hv h
    | inf t => rw [hv] at hx; exact hx.symm
    | fin v => rw [hv] at hx; exact (isRoundOf_exact (.inl rfl) hv hx.1).symm

/-- **C104**, round trip: the downcast of an upcast `f32` vector without NaNs is that
vector, bit for bit. -/
theorem C104_round_trip (r : DownRow) (hr : r ∈ downcastRows ++ downcastRowsUnknown)
    (hk : r.kind = .f) {w : Nat} (v : Vector (BitVec 32) w) (a b : Vector (BitVec 64) r.width)
    (h : IsFloatUpcast .f v a b) (hn : ∀ x ∈ v.toList, ieee x ≠ .nan) :
    ∃ o : Vector (BitVec 32) (2 * r.width), downcastFloat r.lanes a b = ok o ∧
      o.toList = v.toList := by
  obtain ⟨h4, hm, hs, hi⟩ := downcastFloat_facts r hr hk
  obtain ⟨o, h1, h2⟩ := downcastFloat_ok (k := 32) hs hi a b
  refine ⟨o, h1, ?_⟩
  rw [h2]
  have hl : (a.toList ++ b.toList).length = v.toList.length := by
    simpa only [List.length_map] using congrArg List.length h.1
  apply List.ext_getElem
  · simpa using hl
  · intro j h3 h5
    rw [List.getElem_map]
    have h6 : j < (a.toList ++ b.toList).length := by omega
    refine narrow_back (hn _ (List.getElem_mem h5)) ?_ (h.2 rfl j h5 h6 (hn _ (List.getElem_mem h5)))
    have := congrArg (·[j]?) h.1
    simp only [List.getElem?_map, List.getElem?_eq_getElem h6, List.getElem?_eq_getElem h5,
      Option.map_some, Option.some.injEq] at this
    rw [this]
    rfl

end Faster
