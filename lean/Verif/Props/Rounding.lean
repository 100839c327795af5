import Verif.Props.Float
/-
Rounding (C67, C68), roots and reciprocals (C69).
-/
namespace Faster
open Res

variable {α : Type} {n w : Nat}

/-! ### Specification -/

/-- `r` is the float `x` rounded to an integer allowed by `P`: numbers become an
integer of the same sign, infinities stay, NaN stays NaN. -/
def IsRounded (P : ℚ → ℤ → Prop) (x r : BitVec n) : Prop :=
  match ieee x with
  | .nan => ieee r = .nan
  | .inf s => ieee r = .inf s
  | .fin v => r.msb = x.msb ∧ ∃ k : ℤ, ieee r = .fin k ∧ P v k

/-- `k` is an integer nearest to `v`. -/
def IsNearest (v : ℚ) (k : ℤ) : Prop := ∀ j : ℤ, |v - k| ≤ |v - j|

/-- Directed rounding as documented in src/intrin/round.rs. -/
def directed : UnFn → ℚ → ℤ → Prop
  | .floor, v, k => k = ⌊v⌋
  | .ceil, v, k => k = ⌈v⌉
  | .trunc, v, k => k = if 0 ≤ v then ⌊v⌋ else ⌈v⌉
  | _, _, _ => False

/-- Nearest, ties to the even integer. -/
def tiesEven (v : ℚ) (k : ℤ) : Prop := IsNearest v k ∧ (|v - k| = 1 / 2 → k % 2 = 0)

/-- Nearest, ties away from zero. -/
def tiesAway (v : ℚ) (k : ℤ) : Prop := IsNearest v k ∧ (|v - k| = 1 / 2 → |v| < |(k : ℚ)|)

/-! ### From the bits to the rationals -/

/-- What each direction is supposed to do. -/
def RoundDir.spec : RoundDir → ℚ → ℤ → Prop
  | .down => directed .floor
  | .up => directed .ceil
  | .zero => directed .trunc
  | .even => tiesEven
  | .away => tiesAway

theorem nearest_of_le {v : ℚ} {k : ℤ} (h : |v - k| ≤ 1 / 2) : IsNearest v k := by
  intro j
  rcases eq_or_ne j k with rfl | hne
  · exact le_rfl
  · have h1 : (1 : ℚ) ≤ |(j : ℚ) - k| := by
      rw [← Int.cast_sub, ← Int.cast_abs]
      exact_mod_cast Int.one_le_abs (sub_ne_zero.2 hne)
    have h2 : |(j : ℚ) - k| ≤ |v - k| + |v - j| := by
      rw [abs_sub_comm v j]
      calc |(j : ℚ) - k| = |(v - k) + (j - v)| := by congr 1; ring
        _ ≤ _ := abs_add_le _ _
    linarith

/-- Rounding `s * (q + t)` with `0 ≤ t < 1`. -/
theorem carries_spec (d : RoundDir) (neg : Bool) (q : ℕ) {t : ℚ} (h0 : 0 ≤ t) (h1 : t < 1) :
    d.spec ((if neg then -1 else 1) * (q + t)) ((if neg then -1 else 1) *
      (q + if d.carries neg (q % 2 == 1) (decide (t = 0)) (compare t (1 / 2)) then 1 else 0)) := by
  have hq : (0 : ℚ) ≤ q := Nat.cast_nonneg q
  have hfl : ⌊(q : ℚ) + t⌋ = q := by
    rw [Int.floor_eq_iff]; constructor <;> push_cast <;> linarith
  have hcl : t ≠ 0 → ⌈(q : ℚ) + t⌉ = q + 1 := by
    intro ht
    have : 0 < t := lt_of_le_of_ne h0 (Ne.symm ht)
    rw [Int.ceil_eq_iff]; constructor <;> push_cast <;> linarith
  have hcl0 : t = 0 → ⌈(q : ℚ) + t⌉ = q := by
    rintro rfl; simp
  have hsgn : neg = true → (0 ≤ -((q : ℚ) + t) ↔ q = 0 ∧ t = 0) := by
    intro _
    constructor
    · intro h
      have : (q : ℚ) = 0 := by linarith
      exact ⟨by exact_mod_cast this, by linarith⟩
    · rintro ⟨rfl, rfl⟩; simp
  cases d
  · -- down
    simp only [RoundDir.spec, directed, RoundDir.carries]
    cases neg
    · simp [hfl]
    · by_cases ht : t = 0
      · simp only [if_true, neg_one_mul, Int.floor_neg, hcl0 ht]
        simp [ht]
      · simp only [if_true, neg_one_mul, Int.floor_neg, hcl ht]
        simp [ht]
  · -- up
    simp only [RoundDir.spec, directed, RoundDir.carries]
    cases neg
    · by_cases ht : t = 0
      · simp [ht]
      · simp only [Bool.false_eq_true, if_false, one_mul, hcl ht]
        simp [ht]
    · simp only [if_true, neg_one_mul, Int.ceil_neg, hfl]
      simp
  · -- zero
    simp only [RoundDir.spec, directed, RoundDir.carries]
    cases neg
    · simp only [Bool.false_eq_true, if_false, one_mul, hfl]
      rw [if_pos (by linarith)]; simp
    · simp only [if_true, neg_one_mul, Int.ceil_neg, hfl]
      by_cases h : 0 ≤ -((q : ℚ) + t)
      · obtain ⟨rfl, rfl⟩ := (hsgn rfl).1 h
        simp
      · rw [if_neg h]; simp
  · -- even
    simp only [RoundDir.spec, tiesEven, RoundDir.carries]
    have hs : ∀ x y : ℚ, |(if neg then -1 else 1) * x - (if neg then -1 else 1) * y| = |x - y| := by
      intro x y
      cases neg
      · simp
      · simp only [if_true, neg_one_mul]; rw [← abs_neg]; congr 1; ring
    have hpar : ∀ x : ℤ, x % 2 = 0 → (if neg then -1 else 1) * x % 2 = 0 := by
      intro x hx; cases neg <;> simp <;> omega
    rcases lt_trichotomy t (1 / 2) with ht | ht | ht
    · rw [compare_lt_iff_lt.2 ht]
      have : |(q : ℚ) + t - q| < 1 / 2 := by rw [add_sub_cancel_left, abs_of_nonneg h0]; exact ht
      constructor
      · apply nearest_of_le
        push_cast
        rw [hs]; simpa using this.le
      · intro h
        push_cast at h
        rw [hs] at h
        simp at h this
        linarith
    · rw [compare_eq_iff_eq.2 ht]
      by_cases hodd : q % 2 = 1
      · constructor
        · apply nearest_of_le
          push_cast
          rw [hs]; simp [hodd, ht]; rw [abs_le]; constructor <;> norm_num
        · intro _
          apply hpar
          simp [hodd]; omega
      · constructor
        · apply nearest_of_le
          push_cast
          rw [hs]; simp [hodd, ht]
        · intro _
          apply hpar
          simp [hodd]; omega
    · rw [compare_gt_iff_gt.2 ht]
      have : |(q : ℚ) + t - (q + 1)| < 1 / 2 := by
        rw [abs_lt]; constructor <;> linarith
      constructor
      · apply nearest_of_le
        push_cast
        rw [hs]; simpa using this.le
      · intro h
        push_cast at h
        rw [hs] at h
        simp at h
        rw [add_sub_add_left_eq_sub, h] at this
        norm_num at this
  · -- away
    simp only [RoundDir.spec, tiesAway, RoundDir.carries]
    have hs : ∀ x y : ℚ, |(if neg then -1 else 1) * x - (if neg then -1 else 1) * y| = |x - y| := by
      intro x y
      cases neg
      · simp
      · simp only [if_true, neg_one_mul]; rw [← abs_neg]; congr 1; ring
    have ha : ∀ x : ℚ, |(if neg then -1 else 1) * x| = |x| := by
      intro x; cases neg <;> simp
    rcases lt_or_ge t (1 / 2) with ht | ht
    · rw [compare_lt_iff_lt.2 ht]
      have : |(q : ℚ) + t - q| < 1 / 2 := by rw [add_sub_cancel_left, abs_of_nonneg h0]; exact ht
      constructor
      · apply nearest_of_le
        push_cast
        rw [hs]; simpa using this.le
      · intro h
        push_cast at h
        rw [hs] at h
        simp at h this
        linarith
    · have hc : (compare t (1 / 2) != .lt) = true := by
        rw [bne_iff_ne, Ne, compare_lt_iff_lt]; linarith
      simp only [hc, if_true]
      have : |(q : ℚ) + t - (q + 1)| ≤ 1 / 2 := by
        rw [abs_le]; constructor <;> linarith
      constructor
      · apply nearest_of_le
        push_cast
        rw [hs]; simpa using this
      · intro _
        push_cast
        rw [ha, ha, abs_of_nonneg (by linarith)]
        rw [abs_of_nonneg (by linarith)]
        linarith

/-- The model of the scalar functions and instructions meets the specification. -/
theorem fround_spec (hn : n = 32 ∨ n = 64) (d : RoundDir) (x : BitVec n) :
    IsRounded d.spec x (fround d x) := by
  unfold IsRounded
  split
  · rename_i h
    rw [fround_special hn d x (by simp [h])]; exact h
  · rename_i h
    rw [fround_special hn d x (by simp [h])]; exact h
  · rename_i v h
    obtain ⟨q, t, h0, h1, hv, hs, hr⟩ := fround_finite hn d x h
    refine ⟨hs, _, ?_, by rw [hv]; exact carries_spec d x.msb q h0 h1⟩
    rw [hr]
    congr 1
    unfold fsign
    push_cast
    rfl


theorem unaryFallback_ok (op : α → α) {idx : List Nat} (hidx : idx = List.range w)
    (a : Vector α w) : unaryFallback op idx a = ok (a.map op) := by
  subst hidx
  unfold unaryFallback
  refine newLanes_getElem _ (by simp) ?_
  intro i hi
  simp [extract_ok (v := a) hi]

/-! ### C67: floor, ceil and trunc -/

theorem roundRows_facts : ∀ r ∈ roundRows, r.idx = List.range r.width ∧ r.kind = .f ∧
    (8 * r.size = 32 ∨ 8 * r.size = 64) ∧
    ((r.fn = .round ∧ r.mm.rounds r.imm = some (8 * r.size * r.width, 8 * r.size, .even)) ∨
     (r.fn = .ceil ∧ r.mm.rounds r.imm = some (8 * r.size * r.width, 8 * r.size, .up)) ∨
     (r.fn = .floor ∧ r.mm.rounds r.imm = some (8 * r.size * r.width, 8 * r.size, .down)) ∨
     (r.fn = .trunc ∧ r.mm.rounds r.imm = some (8 * r.size * r.width, 8 * r.size, .zero))) := by
  decide +kernel

theorem roundRowsUnknown_facts : ∀ r ∈ roundRowsUnknown, r.idx = List.range r.width ∧
    r.kind = .f ∧ (8 * r.size = 32 ∨ 8 * r.size = 64) ∧
    (r.fn = .round ∨ r.fn = .ceil ∨ r.fn = .floor ∨ r.fn = .trunc) := by
  decide +kernel

example : roundRows.length = 16 ∧ roundRowsUnknown.length = 16 := by decide

theorem roundOptimized_eq {r : UnRow} {d : RoundDir}
    (h : r.mm.rounds r.imm = some (8 * r.size * r.width, 8 * r.size, d))
    (a : Vector (BitVec (8 * r.size)) r.width) : roundOptimized r a = ok (a.map (fround d)) := by
  unfold roundOptimized roundInstr
  rw [h]
  simp

theorem roundFallback_eq {r : UnRow} {d : RoundDir} (h : r.fn.dir = some d)
    (hidx : r.idx = List.range r.width) (a : Vector (BitVec (8 * r.size)) r.width) :
    roundFallback r a = ok (a.map (fround d)) := by
  unfold roundFallback
  rw [h]
  exact unaryFallback_ok _ hidx a

/-- C67: the rounding instructions used for `floor`, `ceil` and `trunc` return in
every lane the exact integer below, above or towards zero. -/
theorem C67_optimized (r : UnRow) (hr : r ∈ roundRows) (hf : r.fn ≠ .round)
    (a : Vector (BitVec (8 * r.size)) r.width) :
    ∃ v, roundOptimized r a = ok v ∧ ∀ i (hi : i < r.width),
      IsRounded (directed r.fn) a[i] v[i] := by
  obtain ⟨-, -, h0, h⟩ := roundRows_facts r hr
  rcases h with ⟨hfn, h⟩ | ⟨hfn, h⟩ | ⟨hfn, h⟩ | ⟨hfn, h⟩
  · exact absurd hfn hf
  all_goals
    refine ⟨_, roundOptimized_eq h a, fun i hi => ?_⟩
    rw [Vector.getElem_map, hfn]
    exact fround_spec h0 _ _

/-- C67: so do the fallbacks, on every target. -/
theorem C67_fallback (r : UnRow) (hr : r ∈ roundRows ∨ r ∈ roundRowsUnknown) (hf : r.fn ≠ .round)
    (a : Vector (BitVec (8 * r.size)) r.width) :
    ∃ v, roundFallback r a = ok v ∧ ∀ i (hi : i < r.width),
      IsRounded (directed r.fn) a[i] v[i] := by
  obtain ⟨hidx, h0, h⟩ : r.idx = List.range r.width ∧ (8 * r.size = 32 ∨ 8 * r.size = 64) ∧
      (r.fn = .round ∨ r.fn = .ceil ∨ r.fn = .floor ∨ r.fn = .trunc) := by
    rcases hr with hr | hr
    · obtain ⟨h1, -, h2, h3⟩ := roundRows_facts r hr
      exact ⟨h1, h2, h3.imp And.left (Or.imp And.left (Or.imp And.left And.left))⟩
    · obtain ⟨h1, -, h2, h3⟩ := roundRowsUnknown_facts r hr
      exact ⟨h1, h2, h3⟩
  rcases h with hfn | hfn | hfn | hfn
  · exact absurd hfn hf
  · refine ⟨_, roundFallback_eq (d := .up) (by rw [hfn]; rfl) hidx a, fun i hi => ?_⟩
    rw [Vector.getElem_map, hfn]
    exact fround_spec h0 _ _
  · refine ⟨_, roundFallback_eq (d := .down) (by rw [hfn]; rfl) hidx a, fun i hi => ?_⟩
    rw [Vector.getElem_map, hfn]
    exact fround_spec h0 _ _
  · refine ⟨_, roundFallback_eq (d := .zero) (by rw [hfn]; rfl) hidx a, fun i hi => ?_⟩
    rw [Vector.getElem_map, hfn]
    exact fround_spec h0 _ _

theorem directed_unique {f : UnFn} {v : ℚ} {k k' : ℤ} (h : directed f v k) (h' : directed f v k') :
    k = k' := by
  cases f <;> simp only [directed] at h h' <;> exact h.trans h'.symm

/-- A rounding rule that leaves no choice determines the bits of every lane that is
not NaN. -/
theorem rounded_unique (hn : n = 32 ∨ n = 64) {P : ℚ → ℤ → Prop}
    (hP : ∀ v k k', P v k → P v k' → k = k') {x r r' : BitVec n} (hx : ieee x ≠ .nan)
    (h : IsRounded P x r) (h' : IsRounded P x r') : r = r' := by
  unfold IsRounded at h h'
  cases hv : ieee x with
  | nan => exact absurd hv hx
  | inf s =>
    rw [hv] at h h'
    simp only at h h'
    have hs : ∀ y : BitVec n, ieee y = .inf s → y.msb = s := by
      intro y hy
      rw [ieee_eq (IsFormat.of hn)] at hy
      split at hy
      · simp at hy
      · split at hy
        · simpa using hy
        · simp at hy
    exact bits_eq_of_ieee hn (by simp [h]) (by rw [hs r h, hs r' h']) (h.trans h'.symm)
  | fin v =>
    rw [hv] at h h'
    obtain ⟨hs, k, hk, hp⟩ := h
    obtain ⟨hs', k', hk', hp'⟩ := h'
    obtain rfl := hP v k k' hp hp'
    exact bits_eq_of_ieee hn (by simp [hk]) (hs.trans hs'.symm) (hk.trans hk'.symm)

/-- C67: both versions return the same bits in every lane that is not NaN. -/
theorem C67_agree (r : UnRow) (hr : r ∈ roundRows) (hf : r.fn ≠ .round)
    (a v v' : Vector (BitVec (8 * r.size)) r.width) (h : roundOptimized r a = ok v)
    (h' : roundFallback r a = ok v') (i : Nat) (hi : i < r.width) (hx : ieee a[i] ≠ .nan) :
    v[i] = v'[i] := by
  obtain ⟨_, e, hs⟩ := C67_optimized r hr hf a
  obtain ⟨_, e', hs'⟩ := C67_fallback r (.inl hr) hf a
  rw [h] at e
  rw [h'] at e'
  cases e
  cases e'
  exact rounded_unique (roundRows_facts r hr).2.2.1 (P := directed r.fn)
    (fun _ _ _ => directed_unique) hx (hs i hi) (hs' i hi)

/-- C67: lanes that are integers already keep their bits. -/
theorem C67_integer (f : UnFn) (hf : f = .floor ∨ f = .ceil ∨ f = .trunc) (hn : n = 32 ∨ n = 64)
    {x r : BitVec n} (k : ℤ) (hx : ieee x = .fin k) (h : IsRounded (directed f) x r) : r = x := by
  unfold IsRounded at h
  rw [hx] at h
  obtain ⟨hs, j, hj, hp⟩ := h
  have : j = k := by
    rcases hf with rfl | rfl | rfl
    · simpa [directed] using hp
    · simpa [directed] using hp
    · simpa [directed] using hp
  subst this
  exact bits_eq_of_ieee hn (by simp [hj]) hs (hj.trans hx.symm)

/-- Non-vacuity: −2.5 is a number, and rounds to −3 and −2. -/
example : fround .down (0xC0200000#32) = 0xC0400000#32 ∧
    fround .up (0xC0200000#32) = 0xC0000000#32 ∧ fround .zero (0xC0200000#32) = 0xC0000000#32 := by
  decide +kernel

/-! ### C68: round -/

/-- C68: the instruction used for `round` returns the nearest integer, ties to even. -/
theorem C68_optimized (r : UnRow) (hr : r ∈ roundRows) (hf : r.fn = .round)
    (a : Vector (BitVec (8 * r.size)) r.width) :
    ∃ v, roundOptimized r a = ok v ∧ ∀ i (hi : i < r.width), IsRounded tiesEven a[i] v[i] := by
  obtain ⟨-, -, h0, h⟩ := roundRows_facts r hr
  rcases h with ⟨hfn, h⟩ | ⟨hfn, h⟩ | ⟨hfn, h⟩ | ⟨hfn, h⟩
  · refine ⟨_, roundOptimized_eq h a, fun i hi => ?_⟩
    rw [Vector.getElem_map]
    exact fround_spec h0 _ _
  all_goals simp [hfn] at hf

/-- C68: the fallbacks return the nearest integer, ties away from zero. -/
theorem C68_fallback (r : UnRow) (hr : r ∈ roundRows ∨ r ∈ roundRowsUnknown) (hf : r.fn = .round)
    (a : Vector (BitVec (8 * r.size)) r.width) :
    ∃ v, roundFallback r a = ok v ∧ ∀ i (hi : i < r.width), IsRounded tiesAway a[i] v[i] := by
  obtain ⟨hidx, h0⟩ : r.idx = List.range r.width ∧ (8 * r.size = 32 ∨ 8 * r.size = 64) := by
    rcases hr with hr | hr
    · obtain ⟨h1, -, h2, -⟩ := roundRows_facts r hr
      exact ⟨h1, h2⟩
    · obtain ⟨h1, -, h2, -⟩ := roundRowsUnknown_facts r hr
      exact ⟨h1, h2⟩
  refine ⟨_, roundFallback_eq (d := .away) (by rw [hf]; rfl) hidx a, fun i hi => ?_⟩
  rw [Vector.getElem_map]
  exact fround_spec h0 _ _

/-- The nearest integer is at most one half away. -/
theorem IsNearest.le {v : ℚ} {k : ℤ} (h : IsNearest v k) : |v - k| ≤ 1 / 2 := by
  have h1 := h ⌊v⌋
  have h2 := h (⌊v⌋ + 1)
  have h3 := Int.floor_le v
  have h4 := Int.lt_floor_add_one v
  rw [abs_of_nonneg (a := v - (⌊v⌋ : ℚ)) (by linarith)] at h1
  rw [abs_of_nonpos (a := v - ((⌊v⌋ + 1 : ℤ) : ℚ)) (by push_cast; linarith)] at h2
  push_cast at h2
  linarith

/-- Ties to even and ties away from zero pick different integers exactly at
±0.5, ±2.5, ±4.5, … -/
theorem ties_differ {v : ℚ} {k k' : ℤ} (h : tiesEven v k) (h' : tiesAway v k') :
    k ≠ k' ↔ ∃ j : ℕ, |v| = 2 * j + 1 / 2 := by
  obtain ⟨h1, h2⟩ := h
  obtain ⟨h1', h2'⟩ := h'
  have e1 := h1.le
  have e2 := h1'.le
  constructor
  · intro hne
    have h3 : (1 : ℚ) ≤ |(k : ℚ) - k'| := by
      rw [← Int.cast_sub, ← Int.cast_abs]
      exact_mod_cast Int.one_le_abs (sub_ne_zero.2 hne)
    have h4 : |(k : ℚ) - k'| ≤ |v - k| + |v - k'| := by
      rw [abs_sub_comm v k]
      calc |(k : ℚ) - k'| = |(k - v) + (v - k')| := by congr 1; ring
        _ ≤ _ := abs_add_le _ _
    have e1' : |v - k| = 1 / 2 := by linarith
    have e2' : |v - k'| = 1 / 2 := by linarith
    have hev := h2 e1'
    have hab := h2' e2'
    rw [abs_eq (by norm_num)] at e1' e2'
    rcases e1' with e1' | e1' <;> rcases e2' with e2' | e2'
    · exact absurd (by have : (k : ℚ) = k' := by linarith
                       exact_mod_cast this) hne
    · obtain rfl : k' = k + 1 := by
        have : (k' : ℚ) = k + 1 := by linarith
        exact_mod_cast this
      rcases lt_or_ge k 0 with hk | hk
      · exfalso
        have hk' : k ≤ -1 := by omega
        have hkq : (k : ℚ) ≤ -1 := by exact_mod_cast hk'
        push_cast at hab
        rw [abs_of_nonpos (by linarith), abs_of_nonpos (by linarith)] at hab
        linarith
      · refine ⟨(k / 2).toNat, ?_⟩
        have hkq : (0 : ℚ) ≤ k := by exact_mod_cast hk
        have hj : k = 2 * ((k / 2).toNat : ℤ) := by omega
        have hjq : (k : ℚ) = 2 * ((k / 2).toNat : ℚ) := by exact_mod_cast hj
        rw [abs_of_nonneg (by linarith)]
        linarith
    · obtain rfl : k' = k - 1 := by
        have : (k' : ℚ) = k - 1 := by linarith
        exact_mod_cast this
      rcases lt_or_ge 0 k with hk | hk
      · exfalso
        have hk' : 1 ≤ k := by omega
        have hkq : (1 : ℚ) ≤ k := by exact_mod_cast hk'
        push_cast at hab
        rw [abs_of_nonneg (by linarith), abs_of_nonneg (by linarith)] at hab
        linarith
      · refine ⟨(-k / 2).toNat, ?_⟩
        have hkq : (k : ℚ) ≤ 0 := by exact_mod_cast hk
        have hj : k = -(2 * ((-k / 2).toNat : ℤ)) := by omega
        have hjq : (k : ℚ) = -(2 * ((-k / 2).toNat : ℚ)) := by exact_mod_cast hj
        rw [abs_of_nonpos (by linarith)]
        linarith
    · exact absurd (by have : (k : ℚ) = k' := by linarith
                       exact_mod_cast this) hne
  · rintro ⟨j, hj⟩ rfl
    have hb : |(|v| - |(k : ℚ)|)| ≤ |v - k| := abs_abs_sub_abs_le v k
    have hb' := hb.trans e1
    rw [hj, abs_le, ← Int.cast_abs] at hb'
    have u1 : (|k| : ℤ) ≤ 2 * j + 1 := by
      have : ((|k| : ℤ) : ℚ) ≤ ((2 * j + 1 : ℤ) : ℚ) := by push_cast at hb' ⊢; linarith
      exact_mod_cast this
    have u2 : 2 * (j : ℤ) ≤ |k| := by
      have : ((2 * j : ℤ) : ℚ) ≤ ((|k| : ℤ) : ℚ) := by push_cast at hb' ⊢; linarith
      exact_mod_cast this
    have hhalf : |v - k| = 1 / 2 := by
      refine le_antisymm e1 (le_trans ?_ hb)
      rw [hj, ← Int.cast_abs]
      rcases (by omega : |k| = 2 * (j : ℤ) ∨ |k| = 2 * (j : ℤ) + 1) with h | h
      · rw [h]; push_cast; rw [add_sub_cancel_left, abs_of_nonneg (by norm_num)]
      · rw [h]; push_cast; rw [add_sub_add_left_eq_sub, abs_of_nonpos (by norm_num)]; norm_num
    have p1 := h2 hhalf
    have p2 := h2' hhalf
    rw [hj, ← Int.cast_abs] at p2
    have u3 : 2 * (j : ℤ) < |k| := by
      have : ((2 * j : ℤ) : ℚ) < ((|k| : ℤ) : ℚ) := by push_cast at p2 ⊢; linarith
      exact_mod_cast this
    rcases abs_choice k with h | h <;> omega

/-- C68: the instruction and the fallback return different lanes exactly for
±0.5, ±2.5, ±4.5, … (Partial: the property asks for the same lanes everywhere.) -/
theorem C68_agree_partial (r : UnRow) (hr : r ∈ roundRows) (hf : r.fn = .round)
    (a v v' : Vector (BitVec (8 * r.size)) r.width) (h : roundOptimized r a = ok v)
    (h' : roundFallback r a = ok v') (i : Nat) (hi : i < r.width) (hx : ieee a[i] ≠ .nan) :
    v[i] ≠ v'[i] ↔ ∃ (x : ℚ) (j : ℕ), ieee a[i] = .fin x ∧ |x| = 2 * j + 1 / 2 := by
  have h0 := (roundRows_facts r hr).2.2.1
  obtain ⟨_, e, hs⟩ := C68_optimized r hr hf a
  obtain ⟨_, e', hs'⟩ := C68_fallback r (.inl hr) hf a
  rw [h] at e
  rw [h'] at e'
  cases e
  cases e'
  have s := hs i hi
  have s' := hs' i hi
  cases hv : ieee a[i] with
  | nan => exact absurd hv hx
  | inf t =>
    have key : v[i] = v'[i] := by
      refine rounded_unique (P := fun _ _ => False) h0 (fun _ _ _ h => h.elim) hx ?_ ?_
      · unfold IsRounded at s ⊢; rw [hv] at s ⊢; exact s
      · unfold IsRounded at s' ⊢; rw [hv] at s' ⊢; exact s'
    simp [key]
  | fin x =>
    unfold IsRounded at s s'
    rw [hv] at s s'
    obtain ⟨hm, k, hk, hp⟩ := s
    obtain ⟨hm', k', hk', hp'⟩ := s'
    have hd := ties_differ hp hp'
    have : v[i] ≠ v'[i] ↔ k ≠ k' := by
      rw [not_iff_not]
      constructor
      · intro he
        rw [he, hk'] at hk
        injection hk with hk
        exact_mod_cast hk.symm
      · rintro rfl
        exact bits_eq_of_ieee h0 (by simp [hk]) (hm.trans hm'.symm) (hk.trans hk'.symm)
    rw [this, hd]
    constructor
    · rintro ⟨j, hj⟩; exact ⟨x, j, rfl, hj⟩
    · rintro ⟨y, j, hy, hj⟩
      injection hy with hy
      exact ⟨j, hy ▸ hj⟩

/-- C68 is false: 2.5 rounds to 2.0 with SSE4.1 and to 3.0 without. -/
theorem C68_false : ∃ r ∈ roundRows, r.fn = .round ∧ ∃ a v v', roundOptimized r a = ok v ∧
    roundFallback r a = ok v' ∧ v ≠ v' := by
  refine ⟨⟨"f32x4", 17, .f, 4, 4, .round, .sse41, .mm_round_ps, 0, [0, 1, 2, 3]⟩, ?_, rfl,
    Vector.replicate 4 0x40200000#32, Vector.replicate 4 0x40000000#32,
    Vector.replicate 4 0x40400000#32, ?_, ?_, ?_⟩
  · exact List.mem_cons_self
  · decide +kernel
  · decide +kernel
  · decide +kernel

/-- Non-vacuity: the values in `C68_false`. -/
example : ieee (0x40200000#32) = .fin (5 / 2) ∧ ieee (0x40000000#32) = .fin 2 ∧
    ieee (0x40400000#32) = .fin 3 := by
  simp [ieee]
  norm_num [BitVec.msb_eq_decide]

/-! ### C69: square roots and reciprocals -/

theorem rootRows_facts : ∀ r ∈ sqrtRows ++ sqrtRowsUnknown ++ recipRows ++ recipRowsUnknown ++
    rsqrtRows ++ rsqrtRowsUnknown, r.idx = List.range r.width ∧ r.kind = .f ∧
      (8 * r.size = 32 ∨ 8 * r.size = 64) := by
  decide +kernel

theorem rootRows_fn : (∀ r ∈ sqrtRows ++ sqrtRowsUnknown, r.fn = .sqrt) ∧
    (∀ r ∈ recipRows ++ recipRowsUnknown, r.fn = .recip) ∧
    (∀ r ∈ rsqrtRows ++ rsqrtRowsUnknown, r.fn = .rsqrt) := by
  decide +kernel

example : sqrtRows.length = 4 ∧ sqrtRowsUnknown.length = 2 ∧ recipRows.length = 2 ∧
    recipRowsUnknown.length = 1 ∧ rsqrtRows.length = 2 ∧ rsqrtRowsUnknown.length = 2 := by decide

/-- C69: whatever the scalar functions are, the fallbacks apply them to every lane
and leave the lanes in their places; `rsqrt` is the reciprocal of the root. -/
theorem C69_fallback (sqrt recip : α → α) :
    (∀ r ∈ sqrtRows ++ sqrtRowsUnknown, ∀ a : Vector α r.width, ∃ v,
      rootFallback sqrt recip r a = ok v ∧ ∀ i (hi : i < r.width), v[i] = sqrt a[i]) ∧
    (∀ r ∈ recipRows ++ recipRowsUnknown, ∀ a : Vector α r.width, ∃ v,
      rootFallback sqrt recip r a = ok v ∧ ∀ i (hi : i < r.width), v[i] = recip a[i]) ∧
    (∀ r ∈ rsqrtRows ++ rsqrtRowsUnknown, ∀ a : Vector α r.width, ∃ v,
      rootFallback sqrt recip r a = ok v ∧ ∀ i (hi : i < r.width), v[i] = recip (sqrt a[i])) := by
  have hall := rootRows_facts
  obtain ⟨f1, f2, f3⟩ := rootRows_fn
  refine ⟨fun r hr a => ?_, fun r hr a => ?_, fun r hr a => ?_⟩
  · have hidx := (hall r (by simp only [List.mem_append] at hr ⊢; tauto)).1
    refine ⟨_, ?_, fun i hi => Vector.getElem_map sqrt hi⟩
    unfold rootFallback
    rw [f1 r hr]
    exact unaryFallback_ok _ hidx a
  · have hidx := (hall r (by simp only [List.mem_append] at hr ⊢; tauto)).1
    refine ⟨_, ?_, fun i hi => Vector.getElem_map recip hi⟩
    unfold rootFallback
    rw [f2 r hr]
    exact unaryFallback_ok _ hidx a
  · have hidx := (hall r (by simp only [List.mem_append] at hr ⊢; tauto)).1
    refine ⟨_, ?_, fun i hi => Vector.getElem_map (rsqrtScalar sqrt recip) hi⟩
    unfold rootFallback
    rw [f3 r hr]
    exact unaryFallback_ok _ hidx a

end Faster
