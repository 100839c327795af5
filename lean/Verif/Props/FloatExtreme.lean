import Verif.Props.Extreme
import Verif.Props.Float
/-
C157: the smallest or largest element of a slice of floats.
-/
namespace Faster
open Res

variable {n w : Nat} {c : Cfg} {isMax : Bool}

/-- A version of `min` or `max` for float lanes, which need not be right for a NaN as second operand
unless `nans` is true. -/
def FloatExtremeOp (isMax nans : Bool)
    (F : Vector (BitVec n) w → Vector (BitVec n) w → Res (Vector (BitVec n) w)) : Prop :=
  ∀ a b, ∃ v, F a b = ok v ∧ ∀ i (hi : i < w), (nans = true ∨ ieee b[i] ≠ .nan) →
    IsFloatExtreme isMax a[i] b[i] v[i]

/-- `f32::min` or `f32::max`. -/
def floatScalar (isMax : Bool) (a x : BitVec n) : BitVec n := if isMax then fmaxScalar a x else fminScalar a x

/-- `slice.simd_iter(d).simd_reduce(start, |acc, v| acc.min(v)).scalar_reduce(s0, |a, x| a.min(x))`,
or the same with `max`, for floats. -/
def floatSliceExtreme (c : Cfg) (fuel : Nat)
    (F : Vector (BitVec n) w → Vector (BitVec n) w → Res (Vector (BitVec n) w)) (isMax : Bool)
    (data : List (BitVec n)) (d start : Vector (BitVec n) w) (s0 : BitVec n) : Res (BitVec n) := do
  let (_, acc, _) ← simdReduce c fuel (simdIter data d) start () fun _ acc v => do
    let u ← F acc v
    ok (u, ())
  Packed.scalarReduce acc s0 fun a x => ok (floatScalar isMax a x)

/-- Both are numbers, and `x` is at most (or, for `isMax`, at least) `y`. -/
def FloatNotBeyond (isMax : Bool) (x y : BitVec n) : Prop :=
  if isMax then (ieee y).le (ieee x) else (ieee x).le (ieee y)

/-- Specification: one of the list; if there are numbers in the list, a number not beyond them. -/
def FloatExtremeOf (isMax : Bool) (l : List (BitVec n)) (r : BitVec n) : Prop :=
  r ∈ l ∧ ∀ y ∈ l, ieee y ≠ .nan → ieee r ≠ .nan ∧ FloatNotBeyond isMax r y

theorem FVal.le_trans {a b d : FVal} (h : a.le b) (h' : b.le d) : a.le d := by
  rcases a with _ | ⟨_ | _⟩ | x <;> rcases b with _ | ⟨_ | _⟩ | y <;> rcases d with _ | ⟨_ | _⟩ | z <;>
    simp_all [FVal.le]
  exact _root_.le_trans h h'

theorem FloatNotBeyond.trans {x y z : BitVec n} (h : FloatNotBeyond isMax x y)
    (h' : FloatNotBeyond isMax y z) : FloatNotBeyond isMax x z := by
  cases isMax
  · exact FVal.le_trans h h'
  · exact FVal.le_trans h' h

theorem FloatNotBeyond.refl {x : BitVec n} (h : ieee x ≠ .nan) : FloatNotBeyond isMax x x := by
  cases isMax <;> exact FVal.le_refl h

theorem floatScalar_extreme (hn : n = 32 ∨ n = 64) (a x : BitVec n) :
    IsFloatExtreme isMax a x (floatScalar isMax a x) := by
  cases isMax
  · exact fminScalar_extreme hn a x
  · exact fmaxScalar_extreme hn a x

/-- What one step keeps. -/
theorem isFloatExtreme_notBeyond {a b r : BitVec n} (h : IsFloatExtreme isMax a b r) :
    (ieee a ≠ .nan → ieee r ≠ .nan ∧ FloatNotBeyond isMax r a) ∧
    (ieee b ≠ .nan → ieee r ≠ .nan ∧ FloatNotBeyond isMax r b) := by
  obtain ⟨h1, h2, h3, h4⟩ := h
  constructor
  · intro ha
    by_cases hb : ieee b = .nan
    · rw [h4 ha hb]; exact ⟨ha, .refl ha⟩
    · have := h2 ha hb
      refine ⟨by rcases h1 with e | e <;> rw [e] <;> assumption, ?_⟩
      cases isMax
      · exact this.1
      · exact this.1
  · intro hb
    by_cases ha : ieee a = .nan
    · rw [h3 ha hb]; exact ⟨hb, .refl hb⟩
    · have := h2 ha hb
      refine ⟨by rcases h1 with e | e <;> rw [e] <;> assumption, ?_⟩
      cases isMax
      · exact this.2
      · exact this.2

/-- The lanes of the accumulator are among the floats seen, and for every number seen there is a lane
which is a number not beyond it. -/
def FloatCovers (isMax : Bool) (acc pool : List (BitVec n)) : Prop :=
  (∀ a ∈ acc, a ∈ pool) ∧
    ∀ y ∈ pool, ieee y ≠ .nan → ∃ a ∈ acc, ieee a ≠ .nan ∧ FloatNotBeyond isMax a y

theorem floatCovers_fold {nans : Bool}
    {F : Vector (BitVec n) w → Vector (BitVec n) w → Res (Vector (BitVec n) w)}
    (hF : FloatExtremeOp isMax nans F) (vs : List (Vector (BitVec n) w)) :
    ∀ (start : Vector (BitVec n) w) (pool), FloatCovers isMax start.toList pool →
    (nans = true ∨ ∀ y ∈ lanes vs, ieee y ≠ .nan) →
    ∃ acc, vs.foldlM (fun (p : Vector (BitVec n) w × Unit) v => (do
        let u ← F p.1 v
        ok (u, ()) : Res (Vector (BitVec n) w × Unit))) (start, ()) = ok (acc, ()) ∧
      FloatCovers isMax acc.toList (pool ++ lanes vs) := by
  induction vs with
  | nil => intro start pool h _; exact ⟨start, rfl, by simpa using h⟩
  | cons v vs ih =>
    intro start pool h hnum
    obtain ⟨u, hu, hl'⟩ := hF start v
    have hl : ∀ i (hi : i < w), IsFloatExtreme isMax start[i] v[i] u[i] := by
      intro i hi
      refine hl' i hi (hnum.imp_right fun h => h _ ?_)
      rw [lanes_cons]
      exact List.mem_append_left _ (by simp)
    have hc : FloatCovers isMax u.toList (pool ++ v.toList) := by
      constructor
      · intro a ha
        obtain ⟨i, hi, rfl⟩ := List.getElem_of_mem ha
        simp only [Vector.length_toList] at hi
        simp only [Vector.getElem_toList]
        rw [List.mem_append]
        rcases (hl i hi).1 with e | e
        · left; rw [e]; exact h.1 _ (by simp)
        · right; rw [e]; simp
      · intro y hy hyn
        rcases List.mem_append.1 hy with hy | hy
        · obtain ⟨a, ha, han, hay⟩ := h.2 y hy hyn
          obtain ⟨i, hi, rfl⟩ := List.getElem_of_mem ha
          simp only [Vector.length_toList] at hi
          simp only [Vector.getElem_toList] at han hay
          obtain ⟨h1, h2⟩ := (isFloatExtreme_notBeyond (hl i hi)).1 han
          exact ⟨u[i], by simp, h1, h2.trans hay⟩
        · obtain ⟨i, hi, rfl⟩ := List.getElem_of_mem hy
          simp only [Vector.length_toList] at hi
          simp only [Vector.getElem_toList] at hyn ⊢
          obtain ⟨h1, h2⟩ := (isFloatExtreme_notBeyond (hl i hi)).2 hyn
          exact ⟨u[i], by simp, h1, h2⟩
    obtain ⟨acc, h1, h2⟩ := ih u _ hc (hnum.imp_right fun h y hy => h y (by
      rw [lanes_cons]; exact List.mem_append_right _ hy))
    refine ⟨acc, ?_, by rwa [lanes_cons, ← List.append_assoc]⟩
    rw [List.foldlM_cons]
    simp only [hu, ok_bind]
    exact h1

theorem floatScalar_fold (hn : n = 32 ∨ n = 64) (l : List (BitVec n)) : ∀ s0 : BitVec n, ∃ r,
    l.foldlM (fun a x => (ok (floatScalar isMax a x) : Res (BitVec n))) s0 = ok r ∧
      FloatExtremeOf isMax (s0 :: l) r := by
  induction l with
  | nil =>
    intro s0
    refine ⟨s0, rfl, by simp, ?_⟩
    intro y hy hyn
    rw [List.mem_singleton.1 hy] at hyn ⊢
    exact ⟨hyn, .refl hyn⟩
  | cons x l ih =>
    intro s0
    obtain ⟨r, h1, h2, h3⟩ := ih (floatScalar isMax s0 x)
    have he := floatScalar_extreme (isMax := isMax) hn s0 x
    have hb := isFloatExtreme_notBeyond he
    refine ⟨r, h1, ?_, ?_⟩
    · rcases List.mem_cons.1 h2 with h | h
      · rcases he.1 with e | e <;> simp [h, e]
      · simp [h]
    · intro y hy hyn
      have h0 := h3 _ List.mem_cons_self
      simp only [List.mem_cons] at hy
      rcases hy with rfl | rfl | hy
      · obtain ⟨a, b⟩ := hb.1 hyn
        exact ⟨(h0 a).1, (h0 a).2.trans b⟩
      · obtain ⟨a, b⟩ := hb.2 hyn
        exact ⟨(h0 a).1, (h0 a).2.trans b⟩
      · exact h3 y (List.mem_cons_of_mem _ hy) hyn

/-- **C157**: the smallest (largest) number among the elements, the starting values and the lanes of the
default vector which fill the last vector, if the operation is right for NaNs or there are none. -/
theorem C157_extreme (hn : n = 32 ∨ n = 64) (hw : 0 < w) {nans : Bool}
    {F : Vector (BitVec n) w → Vector (BitVec n) w → Res (Vector (BitVec n) w)}
    (hF : FloatExtremeOp isMax nans F) (fuel : Nat) (data : List (BitVec n)) (d start : Vector (BitVec n) w)
    (s0 : BitVec n) (hnum : nans = true ∨ ∀ y ∈ data ++ padding w d data, ieee y ≠ .nan)
    (hlen : data.length + w < c.usize) (hfuel : data.length / w < fuel) :
    ∃ r, floatSliceExtreme c fuel F isMax data d start s0 = ok r ∧
      FloatExtremeOf isMax (data ++ s0 :: start.toList ++ padding w d data) r := by
  obtain ⟨acc, h1, h2⟩ := floatCovers_fold hF (calls w d data) start start.toList
    ⟨fun _ h => h, fun y h hy => ⟨y, h, hy, .refl hy⟩⟩
    (hnum.imp_right fun h y hy => h y (List.mem_append.2 ((mem_lanes_calls_iff hw d data y).1 hy)))
  obtain ⟨r, h3, h4, h5⟩ := floatScalar_fold (isMax := isMax) hn acc.toList s0
  refine ⟨r, ?_, ?_, ?_⟩
  · unfold floatSliceExtreme
    rw [C03_reduce_fold c fuel data d start () _ hw hlen hfuel]
    have h' : (do
        let (acc, st') ← (calls w d data).foldlM (fun (p : Vector (BitVec n) w × Unit) v => (do
          let u ← F p.1 v
          ok (u, ()) : Res (Vector (BitVec n) w × Unit))) (start, ())
        ok ((⟨data.length, ⟨data⟩, d⟩ : SIMDIter (Slice (BitVec n) w) (BitVec n) w), acc, st')) =
        ok (⟨data.length, ⟨data⟩, d⟩, acc, ()) := by
      rw [h1]; rfl
    rw [h']
    simp only [ok_bind, Packed.scalarReduce]
    rw [scalarReduceLoop_ok _ _ w 0 s0 (by omega), List.drop_zero, h3]
  · simp only [List.mem_append, List.mem_cons]
    rcases List.mem_cons.1 h4 with h | h
    · simp [h]
    · rcases List.mem_append.1 (h2.1 r h) with h | h
      · simp [h]
      · rcases (mem_lanes_calls_iff hw d data r).1 h with h | h <;> simp [h]
  · intro y hy hyn
    have key (hy : y ∈ start.toList ++ lanes (calls w d data)) :
        ieee r ≠ .nan ∧ FloatNotBeyond isMax r y := by
      obtain ⟨a, ha, han, hay⟩ := h2.2 y hy hyn
      have := h5 a (List.mem_cons_of_mem _ ha) han
      exact ⟨this.1, this.2.trans hay⟩
    simp only [List.mem_append, List.mem_cons] at hy
    rcases hy with (hy | rfl | hy) | hy
    · exact key (List.mem_append_right _ ((mem_lanes_calls_iff hw d data y).2 (.inl hy)))
    · exact h5 _ List.mem_cons_self hyn
    · exact key (List.mem_append_left _ hy)
    · exact key (List.mem_append_right _ ((mem_lanes_calls_iff hw d data y).2 (.inr hy)))

/-- **C157**, partial: with `splat(z)` for both vectors, where no number is beyond `z` (such as infinity
for the minimum), a number which is not beyond any number of the slice, and as large as one of them.
Missing: the instructions on slices with NaNs (`C157_false`), and other defaults. -/
theorem C157_partial (hn : n = 32 ∨ n = 64) (hw : 0 < w) {nans : Bool}
    {F : Vector (BitVec n) w → Vector (BitVec n) w → Res (Vector (BitVec n) w)}
    (hF : FloatExtremeOp isMax nans F) (fuel : Nat) (data : List (BitVec n)) (z : BitVec n)
    (hz : ieee z ≠ .nan) (hz' : ∀ x : BitVec n, ieee x ≠ .nan → FloatNotBeyond isMax x z)
    (hnum : nans = true ∨ ∀ y ∈ data, ieee y ≠ .nan) (hex : ∃ x ∈ data, ieee x ≠ .nan)
    (hlen : data.length + w < c.usize) (hfuel : data.length / w < fuel) :
    ∃ r, floatSliceExtreme c fuel F isMax data (Packed.splat z) (Packed.splat z) z = ok r ∧
      ieee r ≠ .nan ∧ (∀ y ∈ data, ieee y ≠ .nan → FloatNotBeyond isMax r y) ∧
      ∃ x ∈ data, FloatNotBeyond isMax x r := by
  have hs : ∀ y ∈ (Packed.splat z : Vector (BitVec n) w).toList, y = z := by
    intro y hy
    rw [Packed.splat, Vector.toList_replicate] at hy
    exact (List.mem_replicate.1 hy).2
  have hp : ∀ y ∈ padding w (Packed.splat z : Vector (BitVec n) w) data, y = z := by
    intro y hy
    unfold padding at hy
    split at hy
    · simp at hy
    · exact hs y (List.mem_of_mem_take hy)
  obtain ⟨r, h1, h2, h3⟩ := C157_extreme (c := c) hn hw hF fuel data (Packed.splat z) (Packed.splat z) z
    (hnum.imp_right fun h y hy => (List.mem_append.1 hy).elim (h y) fun hy => by rw [hp y hy]; exact hz)
    hlen hfuel
  obtain ⟨x, hx, hxn⟩ := hex
  have hr : ieee r ≠ .nan := (h3 x (by simp [hx]) hxn).1
  refine ⟨r, h1, hr, fun y hy hyn => (h3 y (by simp [hy]) hyn).2, ?_⟩
  have key (e : r = z) : ∃ x ∈ data, FloatNotBeyond isMax x r := ⟨x, hx, by rw [e]; exact hz' x hxn⟩
  simp only [List.mem_append, List.mem_cons] at h2
  rcases h2 with (h | h | h) | h
  · exact ⟨r, h, .refl hr⟩
  · exact key h
  · exact key (hs r h)
  · exact key (hp r h)

/-- **C157**: the fallbacks are right for NaNs too, the instructions if the second operand is a number. -/
theorem C157_versions (c : Cfg) :
    (∀ r, r ∈ cmpRows ∨ r ∈ cmpRowsUnknown → r.kind = .f →
      FloatExtremeOp (n := 8 * r.size) (w := r.width) (r.fn == .max) true
        (binaryFallback (r.fn.eval c r.kind) r.idx)) ∧
    (∀ r ∈ cmpRows, r.kind = .f →
      FloatExtremeOp (n := 8 * r.size) (w := r.width) (r.fn == .max) false (binaryInstr r.mm)) := by
  constructor
  · intro r hr hk a b
    obtain ⟨v, h1, h2⟩ := C66_fallback c r hr hk a b
    exact ⟨v, h1, fun i hi _ => h2 i hi⟩
  · intro r hr hk a b
    obtain ⟨v, h1, h2⟩ := C66_optimized_partial r hr hk a b
    refine ⟨v, h1, fun i hi hb => (h2 i hi).1.2 ?_⟩
    rintro ⟨-, h⟩
    simp [h] at hb

/-- **C157**: the instructions work lane by lane, and return the second operand if one is a NaN. -/
theorem C157_lane (r : BinRow) (hr : r ∈ cmpRows) (hk : r.kind = .f) :
    ∃ g : BitVec (8 * r.size) → BitVec (8 * r.size) → BitVec (8 * r.size),
      (∀ a b : Vector (BitVec (8 * r.size)) r.width, binaryInstr r.mm a b = ok (a.zipWith g b)) ∧
      ∀ x y, ieee x = .nan ∨ ieee y = .nan → g x y = y := by
  have key (op : LaneOp) (h0 : 8 * r.size = 32 ∨ 8 * r.size = 64)
      (hl : r.mm.lanes = some ⟨8 * r.size * r.width, 8 * r.size, op⟩)
      (a b : Vector (BitVec (8 * r.size)) r.width) : binaryInstr r.mm a b = ok (a.zipWith op.eval b) := by
    rw [binaryInstr_eq hl rfl rfl (show 0 < 8 * r.size by omega) a b]
    congr 1
    ext1 i hi
    simp [X86.lanewise]
  obtain ⟨-, h0, h⟩ := cmpRows_float r hr hk
  rcases h with ⟨-, hl⟩ | ⟨-, hl⟩
  · exact ⟨_, key _ h0 hl, fun x y h => (minF_nan h0 h).1⟩
  · exact ⟨_, key _ h0 hl, fun x y h => (minF_nan h0 h).2⟩

/-- **C157**: with the instructions, a lane forgets everything before a NaN: after it, whatever was seen
before, the lane is that of a pass which starts with the vector of the NaN. -/
theorem C157_forgets {g : BitVec n → BitVec n → BitVec n}
    (hg : ∀ x y, ieee x = .nan ∨ ieee y = .nan → g x y = y) (before after : List (Vector (BitVec n) w))
    (u start : Vector (BitVec n) w) (i : Nat) (hi : i < w) (hu : ieee u[i] = .nan) :
    ((before ++ u :: after).foldl (fun acc v => acc.zipWith g v) start)[i] =
      (after.foldl (fun acc v => acc.zipWith g v) u)[i] := by
  rw [List.foldl_append, List.foldl_cons]
  have key : ∀ (vs : List (Vector (BitVec n) w)) (a b : Vector (BitVec n) w), a[i] = b[i] →
      (vs.foldl (fun acc v => acc.zipWith g v) a)[i] = (vs.foldl (fun acc v => acc.zipWith g v) b)[i] := by
    intro vs
    induction vs with
    | nil => intro a b h; exact h
    | cons v vs ih => intro a b h; exact ih _ _ (by simp [h])
  apply key
  rw [Vector.getElem_zipWith]
  exact hg _ _ (.inr hu)

/-- **C157** is false with SSE: the NaN makes `f32x4` forget that there was a one; without SSE the result
is one. -/
theorem C157_false :
    floatSliceExtreme release64 9 (w := 4) (binaryInstr .mm_min_ps) false
      [0x3F800000#32, 0x41100000, 0x41100000, 0x41100000, 0x7FC00000, 0x41100000, 0x41100000, 0x41100000,
        0x40A00000, 0x41100000, 0x41100000, 0x41100000]
      (Packed.splat 0x7F800000) (Packed.splat 0x7F800000) 0x7F800000 = ok 0x40A00000 ∧
    floatSliceExtreme release64 9 (w := 4) (binaryFallback (Fn.min.eval release64 .f) [0, 1, 2, 3]) false
      [0x3F800000#32, 0x41100000, 0x41100000, 0x41100000, 0x7FC00000, 0x41100000, 0x41100000, 0x41100000,
        0x40A00000, 0x41100000, 0x41100000, 0x41100000]
      (Packed.splat 0x7F800000) (Packed.splat 0x7F800000) 0x7F800000 = ok 0x3F800000 := by
  decide +kernel

/-- The hypotheses can be met: the smallest of three floats and a NaN with the fallback of `f32x4`. -/
example : ∃ r, floatSliceExtreme release64 9 (n := 32) (w := 4)
      (binaryFallback (Fn.min.eval release64 .f) [0, 1, 2, 3]) false
      [0x41100000, 0x7FC00000, 0x40A00000, 0x3F800000, 0x41100000] (Packed.splat 0x7F800000)
      (Packed.splat 0x7F800000) 0x7F800000 = ok r ∧ ieee r ≠ .nan ∧
    (∀ y ∈ [0x41100000#32, 0x7FC00000, 0x40A00000, 0x3F800000, 0x41100000], ieee y ≠ .nan →
      FloatNotBeyond false r y) ∧
    ∃ x ∈ [0x41100000#32, 0x7FC00000, 0x40A00000, 0x3F800000, 0x41100000], FloatNotBeyond false x r := by
  have hi : ieee 0x7F800000#32 = .inf false := by simp [ieee]; decide
  have h9 : ieee 0x41100000#32 ≠ .nan := by simp [ieee]
  have hrow : ∃ r ∈ cmpRows, r.kind = .f ∧ r.size = 4 ∧ r.width = 4 ∧ r.fn = .min ∧ r.idx = [0, 1, 2, 3] := by
    decide +kernel
  obtain ⟨⟨_, _, k, sz, wd, fn, _, _, idx⟩, hr, h1, h2, h3, h4, h5⟩ := hrow
  simp only at h1 h2 h3 h4 h5
  subst h1 h2 h3 h4 h5
  exact C157_partial (n := 32) (w := 4) (.inl rfl) (by decide) ((C157_versions release64).1 _ (.inl hr) rfl) 9 _
    0x7F800000#32 (by rw [hi]; simp) (fun x hx => by
      show (ieee x).le _
      rw [hi]
      rcases h : ieee x with _ | ⟨_ | _⟩ | _ <;> simp_all [FVal.le]) (.inl rfl)
    ⟨_, List.mem_cons_self, h9⟩ (by decide) (by decide)

end Faster
