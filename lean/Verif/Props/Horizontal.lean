import Verif.Props.Arith
/-
Horizontal addition and subtraction (C40).
-/
namespace Faster
open Res

variable {α : Type} {n w : Nat}

/-! ### Lemmas -/

theorem mapM_id_panic {xs : List (Res α)} (h : ∀ x ∈ xs, (∃ y, x = ok y) ∨ x = panic)
    (hp : panic ∈ xs) : xs.mapM (m := Res) id = panic := by
  induction xs with
  | nil => simp at hp
  | cons x xs ih =>
    rcases h x (by simp) with ⟨y, rfl⟩ | rfl
    · have hp' : panic ∈ xs := by simpa using hp
      simp [List.mapM_cons, ih (fun z hz => h z (by simp [hz])) hp']
    · simp [List.mapM_cons]

/-- A lane expression that panics makes the whole constructor call panic, if the
others evaluate or panic too. -/
theorem newLanes_panic {xs : List (Res α)} (h : ∀ x ∈ xs, (∃ y, x = ok y) ∨ x = panic)
    (hp : panic ∈ xs) : (newLanes xs : Res (Vector α w)) = panic := by
  unfold newLanes
  rw [mapM_id_panic h hp]
  rfl

theorem newLanes_ok (v : Vector α w) (l : Vector (Res α) w) (h : ∀ i (hi : i < w), l[i] = ok v[i]) :
    newLanes l.toList = ok v := by
  refine newLanes_getElem _ (by simp) ?_
  intro i hi
  simpa using h i hi

theorem hSpec_map {β γ : Type} (f : α → α → β) (g : β → γ) (a b : Vector α w) (hw : w % 2 = 0)
    (i : Nat) (hi : i < w) : (hSpec (fun x y => g (f x y)) a b hw)[i] = g (hSpec f a b hw)[i] := by
  simp only [hSpec, Vector.getElem_ofFn]
  split <;> rfl

theorem map_hSpec {β γ : Type} (f : α → α → β) (g : β → γ) (a b : Vector α w) (hw : w % 2 = 0) :
    (hSpec f a b hw).map g = hSpec (fun x y => g (f x y)) a b hw := by
  apply Vector.ext
  intro i hi
  rw [Vector.getElem_map, hSpec_map f g a b hw i hi]

/-- Two pairwise operations agree on the vectors if they agree on all pairs. -/
theorem hSpec_congr {β : Type} {f g : α → α → β} (a b : Vector α w) (hw : w % 2 = 0)
    (ha : ∀ i (hi : i < w / 2), f a[2 * i] a[2 * i + 1] = g a[2 * i] a[2 * i + 1])
    (hb : ∀ i (hi : i < w / 2), f b[2 * i] b[2 * i + 1] = g b[2 * i] b[2 * i + 1]) :
    hSpec f a b hw = hSpec g a b hw := by
  apply Vector.ext
  intro i hi
  simp only [hSpec, Vector.getElem_ofFn]
  split
  · have := ha (i / 2) (by omega)
    have e : 2 * (i / 2) = i := by omega
    simpa only [e] using this
  · have := hb (i / 2) (by omega)
    have e : 2 * (i / 2) = i - 1 := by omega
    have e' : i - 1 + 1 = i := by omega
    simpa only [e, e'] using this

/-! ### Row facts -/

theorem haddRows_facts : ∀ r ∈ haddRows ++ haddRowsUnknown, r.idx = List.range r.width ∧
    0 < r.size ∧ r.width % 2 = 0 ∧ r.op = .add := by
  decide +kernel

theorem hsubRows_facts : ∀ r ∈ hsubRows ++ hsubRowsUnknown, r.idx = List.range r.width ∧
    0 < r.size ∧ r.width % 2 = 0 ∧ r.op = .sub := by
  decide +kernel

theorem satHaddRows_facts : ∀ r ∈ satHaddRows ++ satHaddRowsUnknown, r.idx = List.range r.width ∧
    0 < r.size ∧ r.width % 2 = 0 ∧ r.op = .saturating_add := by
  decide +kernel

theorem satHsubRows_facts : ∀ r ∈ satHsubRows ++ satHsubRowsUnknown, r.idx = List.range r.width ∧
    0 < r.size ∧ r.width % 2 = 0 ∧ r.op = .saturating_sub := by
  decide +kernel

example : (haddRows ++ haddRowsUnknown).length = 40 ∧ (hsubRows ++ hsubRowsUnknown).length = 40 := by
  decide
example : (satHaddRows ++ satHaddRowsUnknown).length = 32 ∧
    (satHsubRows ++ satHsubRowsUnknown).length = 32 := by decide

/-! ### Fallbacks -/

theorem hop_ok_all {op : α → α → Res α} {f : α → α → α} {idx : List Nat}
    (hidx : idx = List.range w) (hw : w % 2 = 0) (a b : Vector α w)
    (ha : ∀ i (hi : i < w / 2), op a[2 * i] a[2 * i + 1] = ok (f a[2 * i] a[2 * i + 1]))
    (hb : ∀ i (hi : i < w / 2), op b[2 * i] b[2 * i + 1] = ok (f b[2 * i] b[2 * i + 1])) :
    hop op idx a b = ok (hSpec f a b hw) := by
  rw [hop_lanes op hidx a b hw, hSpec_congr (g := fun x y => ok (f x y)) a b hw ha hb]
  exact newLanes_ok _ _ fun i hi => hSpec_map f ok a b hw i hi

/-- C40 (release builds): the fallbacks of `hadd` return the wrapped sums of
adjacent lanes, interleaved, for every vector type. -/
theorem C40_hadd_release (c : Cfg) (hc : c.debug = false) (r : HopRow)
    (hr : r ∈ haddRows ++ haddRowsUnknown) (hk : r.kind ≠ .f) (hw : r.width % 2 = 0)
    (a b : Vector (BitVec (8 * r.size)) r.width) :
    hop (r.op.eval c r.kind) r.idx a b = ok (hSpec (· + ·) a b hw) := by
  obtain ⟨hidx, -, -, hop⟩ := haddRows_facts r hr
  apply hop_ok_all hidx hw <;> (intro i hi; simp [hop, Fn.eval, hk, overflowCheck, hc])

theorem C40_hsub_release (c : Cfg) (hc : c.debug = false) (r : HopRow)
    (hr : r ∈ hsubRows ++ hsubRowsUnknown) (hk : r.kind ≠ .f) (hw : r.width % 2 = 0)
    (a b : Vector (BitVec (8 * r.size)) r.width) :
    hop (r.op.eval c r.kind) r.idx a b = ok (hSpec (· - ·) a b hw) := by
  obtain ⟨hidx, -, -, hop⟩ := hsubRows_facts r hr
  apply hop_ok_all hidx hw <;> (intro i hi; simp [hop, Fn.eval, hk, overflowCheck, hc])

/-- No pair of adjacent lanes overflows under `g`. -/
def PairsFit (signed : Bool) (g : Int → Int → Int) (v : Vector (BitVec n) w) : Prop :=
  ∀ i (hi : i < w / 2), Fits signed n (g (num signed v[2 * i]) (num signed v[2 * i + 1]))

/-- C40: without overflow the fallback of `hadd` returns the exact sums in every
build. -/
theorem C40_hadd_exact (c : Cfg) (r : HopRow) (hr : r ∈ haddRows ++ haddRowsUnknown)
    (hk : r.kind ≠ .f) (hw : r.width % 2 = 0) (a b : Vector (BitVec (8 * r.size)) r.width)
    (ha : PairsFit r.kind.signed (· + ·) a) (hb : PairsFit r.kind.signed (· + ·) b) :
    hop (r.op.eval c r.kind) r.idx a b = ok (hSpec (· + ·) a b hw) ∧
    (hSpec (· + ·) a b hw).map (num r.kind.signed) =
      hSpec (fun x y => num r.kind.signed x + num r.kind.signed y) a b hw := by
  obtain ⟨hidx, h0, -, hop⟩ := haddRows_facts r hr
  have h8 : 0 < 8 * r.size := by omega
  have key : ∀ x y : BitVec (8 * r.size), Fits r.kind.signed (8 * r.size)
      (num r.kind.signed x + num r.kind.signed y) →
      r.op.eval c r.kind x y = ok (x + y) ∧
        num r.kind.signed (x + y) = num r.kind.signed x + num r.kind.signed y := by
    intro x y h
    rw [fits_iff _ h8, num_eq, num_eq] at h
    refine ⟨by simp [hop, Fn.eval, hk, overflowCheck, h], ?_⟩
    rw [num_eq, num_eq, num_eq, r.kind.add_eq, r.kind.value_ofInt h8 h]
  refine ⟨hop_ok_all hidx hw a b (fun i hi => (key _ _ (ha i hi)).1)
    (fun i hi => (key _ _ (hb i hi)).1), ?_⟩
  rw [← hSpec_congr (f := fun x y => num r.kind.signed (x + y)) a b hw
    (fun i hi => (key _ _ (ha i hi)).2) (fun i hi => (key _ _ (hb i hi)).2)]
  exact map_hSpec _ _ a b hw

theorem C40_hsub_exact (c : Cfg) (r : HopRow) (hr : r ∈ hsubRows ++ hsubRowsUnknown)
    (hk : r.kind ≠ .f) (hw : r.width % 2 = 0) (a b : Vector (BitVec (8 * r.size)) r.width)
    (ha : PairsFit r.kind.signed (· - ·) a) (hb : PairsFit r.kind.signed (· - ·) b) :
    hop (r.op.eval c r.kind) r.idx a b = ok (hSpec (· - ·) a b hw) ∧
    (hSpec (· - ·) a b hw).map (num r.kind.signed) =
      hSpec (fun x y => num r.kind.signed x - num r.kind.signed y) a b hw := by
  obtain ⟨hidx, h0, -, hop⟩ := hsubRows_facts r hr
  have h8 : 0 < 8 * r.size := by omega
  have key : ∀ x y : BitVec (8 * r.size), Fits r.kind.signed (8 * r.size)
      (num r.kind.signed x - num r.kind.signed y) →
      r.op.eval c r.kind x y = ok (x - y) ∧
        num r.kind.signed (x - y) = num r.kind.signed x - num r.kind.signed y := by
    intro x y h
    rw [fits_iff _ h8, num_eq, num_eq] at h
    refine ⟨by simp [hop, Fn.eval, hk, overflowCheck, h], ?_⟩
    rw [num_eq, num_eq, num_eq, r.kind.sub_eq, r.kind.value_ofInt h8 h]
  refine ⟨hop_ok_all hidx hw a b (fun i hi => (key _ _ (ha i hi)).1)
    (fun i hi => (key _ _ (hb i hi)).1), ?_⟩
  rw [← hSpec_congr (f := fun x y => num r.kind.signed (x - y)) a b hw
    (fun i hi => (key _ _ (ha i hi)).2) (fun i hi => (key _ _ (hb i hi)).2)]
  exact map_hSpec _ _ a b hw

theorem hop_panic {op : BitVec n → BitVec n → Res (BitVec n)} {idx : List Nat}
    (hidx : idx = List.range w) (hw : w % 2 = 0) (a b : Vector (BitVec n) w)
    (hop' : ∀ x y, (∃ z, op x y = ok z) ∨ op x y = panic)
    (h : (∃ i, ∃ hi : i < w / 2, op a[2 * i] a[2 * i + 1] = panic) ∨
      (∃ i, ∃ hi : i < w / 2, op b[2 * i] b[2 * i + 1] = panic)) :
    hop op idx a b = panic := by
  rw [hop_lanes op hidx a b hw]
  apply newLanes_panic
  · intro x hx
    rw [List.mem_iff_getElem] at hx
    obtain ⟨i, hi, rfl⟩ := hx
    simp only [Vector.getElem_toList, hSpec, Vector.getElem_ofFn]
    split <;> exact hop' _ _
  · rw [List.mem_iff_getElem]
    rcases h with ⟨i, hi, h⟩ | ⟨i, hi, h⟩
    · refine ⟨2 * i, by simp; omega, ?_⟩
      simpa [hSpec] using h
    · refine ⟨2 * i + 1, by simp; omega, ?_⟩
      simpa [hSpec] using h

/-- C40: a pair that overflows makes the fallback panic in debug builds. -/
theorem C40_hadd_debug_overflow (c : Cfg) (hc : c.debug = true) (r : HopRow)
    (hr : r ∈ haddRows ++ haddRowsUnknown) (hk : r.kind ≠ .f)
    (a b : Vector (BitVec (8 * r.size)) r.width)
    (h : ¬ PairsFit r.kind.signed (· + ·) a ∨ ¬ PairsFit r.kind.signed (· + ·) b) :
    hop (r.op.eval c r.kind) r.idx a b = panic := by
  obtain ⟨hidx, h0, hw, hop⟩ := haddRows_facts r hr
  have h8 : 0 < 8 * r.size := by omega
  have key : ∀ x y : BitVec (8 * r.size), ¬ Fits r.kind.signed (8 * r.size)
      (num r.kind.signed x + num r.kind.signed y) → r.op.eval c r.kind x y = panic := by
    intro x y h
    rw [fits_iff _ h8, num_eq, num_eq] at h
    simp [hop, Fn.eval, hk, overflowCheck, h, hc]
  apply hop_panic hidx hw
  · intro x y
    simp only [hop, Fn.eval, hk, if_false, overflowCheck, hc, if_true]
    split
    · exact Or.inl ⟨_, rfl⟩
    · exact Or.inr rfl
  · unfold PairsFit at h
    simp only [Classical.not_forall] at h
    rcases h with ⟨i, hi, h⟩ | ⟨i, hi, h⟩
    · exact Or.inl ⟨i, hi, key _ _ h⟩
    · exact Or.inr ⟨i, hi, key _ _ h⟩

theorem C40_hsub_debug_overflow (c : Cfg) (hc : c.debug = true) (r : HopRow)
    (hr : r ∈ hsubRows ++ hsubRowsUnknown) (hk : r.kind ≠ .f)
    (a b : Vector (BitVec (8 * r.size)) r.width)
    (h : ¬ PairsFit r.kind.signed (· - ·) a ∨ ¬ PairsFit r.kind.signed (· - ·) b) :
    hop (r.op.eval c r.kind) r.idx a b = panic := by
  obtain ⟨hidx, h0, hw, hop⟩ := hsubRows_facts r hr
  have h8 : 0 < 8 * r.size := by omega
  have key : ∀ x y : BitVec (8 * r.size), ¬ Fits r.kind.signed (8 * r.size)
      (num r.kind.signed x - num r.kind.signed y) → r.op.eval c r.kind x y = panic := by
    intro x y h
    rw [fits_iff _ h8, num_eq, num_eq] at h
    simp [hop, Fn.eval, hk, overflowCheck, h, hc]
  apply hop_panic hidx hw
  · intro x y
    simp only [hop, Fn.eval, hk, if_false, overflowCheck, hc, if_true]
    split
    · exact Or.inl ⟨_, rfl⟩
    · exact Or.inr rfl
  · unfold PairsFit at h
    simp only [Classical.not_forall] at h
    rcases h with ⟨i, hi, h⟩ | ⟨i, hi, h⟩
    · exact Or.inl ⟨i, hi, key _ _ h⟩
    · exact Or.inr ⟨i, hi, key _ _ h⟩

/-- C40: the saturating fallbacks return the clamped sum of every pair. -/
theorem C40_saturating_hadd (c : Cfg) (r : HopRow) (hr : r ∈ satHaddRows ++ satHaddRowsUnknown)
    (hw : r.width % 2 = 0) (a b : Vector (BitVec (8 * r.size)) r.width) :
    ∃ v, hop (r.op.eval c r.kind) r.idx a b = ok v ∧
      v.map (num r.kind.signed) = hSpec (fun x y => nearest r.kind.signed (8 * r.size)
        (num r.kind.signed x + num r.kind.signed y)) a b hw := by
  obtain ⟨hidx, h0, -, hop⟩ := satHaddRows_facts r hr
  refine ⟨hSpec (satAddScalar r.kind) a b hw, hop_ok_all hidx hw a b ?_ ?_, ?_⟩
  · intro i hi; simp [hop, Fn.eval]
  · intro i hi; simp [hop, Fn.eval]
  · simp only [← satAddScalar_num r.kind (show 0 < 8 * r.size by omega)]
    exact map_hSpec _ _ a b hw

theorem C40_saturating_hsub (c : Cfg) (r : HopRow) (hr : r ∈ satHsubRows ++ satHsubRowsUnknown)
    (hw : r.width % 2 = 0) (a b : Vector (BitVec (8 * r.size)) r.width) :
    ∃ v, hop (r.op.eval c r.kind) r.idx a b = ok v ∧
      v.map (num r.kind.signed) = hSpec (fun x y => nearest r.kind.signed (8 * r.size)
        (num r.kind.signed x - num r.kind.signed y)) a b hw := by
  obtain ⟨hidx, h0, -, hop⟩ := satHsubRows_facts r hr
  refine ⟨hSpec (satSubScalar r.kind) a b hw, hop_ok_all hidx hw a b ?_ ?_, ?_⟩
  · intro i hi; simp [hop, Fn.eval]
  · intro i hi; simp [hop, Fn.eval]
  · simp only [← satSubScalar_num r.kind (show 0 < 8 * r.size by omega)]
    exact map_hSpec _ _ a b hw

/-- C40: the fallbacks of the float types combine the same pairs in the same
order, whatever float addition or subtraction `f` is. -/
theorem C40_float_fallback (f : BitVec n → BitVec n → BitVec n) (r : HopRow)
    (hr : r ∈ haddRows ++ haddRowsUnknown ∨ r ∈ hsubRows ++ hsubRowsUnknown)
    (hw : r.width % 2 = 0) (a b : Vector (BitVec n) r.width) :
    hop (fun x y => ok (f x y)) r.idx a b = ok (hSpec f a b hw) := by
  have hidx : r.idx = List.range r.width := by
    rcases hr with hr | hr
    · exact (haddRows_facts r hr).1
    · exact (hsubRows_facts r hr).1
  exact hop_ok_all hidx hw a b (fun _ _ => rfl) (fun _ _ => rfl)

/-! ### Optimized versions -/

/-- C40: unpacking and a horizontal instruction combine the pairs in the same
order as the fallback. `f` is the lane operation of the instruction: wrapping
`+`/`-` for `hadd_epi16/32`/`hsub_epi16/32`, `addsEpi`/`subsEpi` for
`hadds_epi16`/`hsubs_epi16`, float `+`/`-` for `hadd_ps`/`hsub_ps`. -/
theorem C40_optimized_i16x8 (f : BitVec 16 → BitVec 16 → BitVec 16) (a b : Vector (BitVec 16) 8) :
    hopUnpack 8 f a b = hSpec f a b rfl :=
  hopUnpack_eq (k := 2) f a b (by omega) rfl rfl

theorem C40_optimized_i16x16 (f : BitVec 16 → BitVec 16 → BitVec 16) (a b : Vector (BitVec 16) 16) :
    hopUnpack 8 f a b = hSpec f a b rfl :=
  hopUnpack_eq (k := 2) f a b (by omega) rfl rfl

theorem C40_optimized_i32x4 (f : BitVec 32 → BitVec 32 → BitVec 32) (a b : Vector (BitVec 32) 4) :
    hopUnpack 4 f a b = hSpec f a b rfl :=
  hopUnpack_eq (k := 1) f a b (by omega) rfl rfl

/-- Also f32x8, whose optimized version is built the same way. -/
theorem C40_optimized_i32x8 (f : BitVec 32 → BitVec 32 → BitVec 32) (a b : Vector (BitVec 32) 8) :
    hopUnpack 4 f a b = hSpec f a b rfl :=
  hopUnpack_eq (k := 1) f a b (by omega) rfl rfl

theorem C40_optimized_f32x4 (f : BitVec 32 → BitVec 32 → BitVec 32) (a b : Vector (BitVec 32) 4) :
    hopShufflePs f a b = hSpec f a b rfl := by
  apply Vector.ext
  intro i hi
  have : i = 0 ∨ i = 1 ∨ i = 2 ∨ i = 3 := by omega
  rcases this with rfl | rfl | rfl | rfl <;>
    simp [hopShufflePs, X86.horizontal, X86.shufflePs, X86.lane, X86.field2, hSpec]

theorem hopPd_eq (f : BitVec 64 → BitVec 64 → BitVec 64) (a b : Vector (BitVec 64) w)
    (hw : w % 2 = 0) : hopPd f a b = hSpec f a b hw := by
  apply Vector.ext
  intro i hi
  simp only [hopPd, X86.horizontal, hSpec, Vector.getElem_ofFn]
  by_cases h : i % 2 = 0
  · rw [if_pos (by omega), dif_pos h, lane_eq _ (by omega), lane_eq _ (by omega)]
    congr 1 <;> exact getElem_idx _ _ (by omega)
  · rw [if_neg (by omega), dif_neg h, lane_eq _ (by omega), lane_eq _ (by omega)]
    congr 1 <;> exact getElem_idx _ _ (by omega)

theorem C40_optimized_f64x2 (f : BitVec 64 → BitVec 64 → BitVec 64) (a b : Vector (BitVec 64) 2) :
    hopPd f a b = hSpec f a b rfl := hopPd_eq f a b rfl

theorem C40_optimized_f64x4 (f : BitVec 64 → BitVec 64 → BitVec 64) (a b : Vector (BitVec 64) 4) :
    hopPd f a b = hSpec f a b rfl := hopPd_eq f a b rfl

/-- C40: `hadds_epi16` clamps every sum and `hsubs_epi16` every difference. -/
theorem C40_optimized_saturating (hw : w % 2 = 0) (a b : Vector (BitVec 16) w) :
    (hSpec X86.addsEpi a b hw).map (num true) =
        hSpec (fun x y => nearest true 16 (num true x + num true y)) a b hw ∧
    (hSpec X86.subsEpi a b hw).map (num true) =
        hSpec (fun x y => nearest true 16 (num true x - num true y)) a b hw := by
  have h1 : ∀ x y : BitVec 16, num true (X86.addsEpi x y) = nearest true 16 (num true x + num true y) := by
    intro x y
    have := addsEpi_eq .i (by decide) x y
    rw [if_pos rfl] at this
    rw [this]
    show num Kind.i.signed _ = nearest Kind.i.signed 16 _
    rw [num_eq, nearest_eq, Kind.value_ofInt _ (by omega) (Kind.i.clamp_bounds (by omega) _)]
    rfl
  have h2 : ∀ x y : BitVec 16, num true (X86.subsEpi x y) = nearest true 16 (num true x - num true y) := by
    intro x y
    have := subsEpi_eq .i (by decide) x y
    rw [if_pos rfl] at this
    rw [this]
    show num Kind.i.signed _ = nearest Kind.i.signed 16 _
    rw [num_eq, nearest_eq, Kind.value_ofInt _ (by omega) (Kind.i.clamp_bounds (by omega) _)]
    rfl
  constructor
  · simp only [← h1]
    exact map_hSpec _ _ a b hw
  · simp only [← h2]
    exact map_hSpec _ _ a b hw

/-- Non-vacuity: the pairs of [1,2,3,4] and [10,20,30,40]. -/
example : hopUnpack 4 (· + ·) #v[1#32, 2#32, 3#32, 4#32] #v[10#32, 20#32, 30#32, 40#32] =
    #v[3#32, 30#32, 7#32, 70#32] := by decide +kernel
example : PairsFit true (· + ·) #v[1#8, 2#8] ∧ ¬ PairsFit true (· + ·) #v[100#8, 100#8] := by
  unfold PairsFit Fits nearest num; decide +kernel

end Faster
