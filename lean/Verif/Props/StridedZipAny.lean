import Verif.Props.StridedZipTrace
import Verif.Props.StrideAny

/-!
C140 without restriction: the exact condition for undefined behaviour of any sequence of calls on a
zip of strided iterators, from any index, with any amounts, also where computations wrap around.
-/

namespace Faster
open Res SIMDSized SIMDIterable SIMDIterator

/-- A sequence of calls on a zip has undefined behaviour if and only if one of them has, after those
before it returned. -/
theorem runZip_ub_iff {Z γ : Type} [SIMDZippedIterator Z γ] (c : Cfg) : ∀ (ops : List ZipOp) (z : Z),
    runZip c z ops = ub ↔ ∃ pre op post os z', ops = pre ++ op :: post ∧
      runZip c z pre = ok (os, z') ∧ op.step c z' = ub := by
  intro ops
  induction ops with
  | nil =>
    intro z
    constructor
    · intro h; cases h
    · rintro ⟨pre, op, post, os, z', h, -⟩
      simp at h
  | cons op ops ih =>
    intro z
    constructor
    · intro h
      simp only [runZip] at h
      cases h1 : op.step c z with
      | ok r =>
        rw [h1] at h
        simp only [ok_bind] at h
        have h2 : runZip c r.2 ops = ub := by
          cases h2 : runZip c r.2 ops <;> rw [h2] at h <;> simp_all
        obtain ⟨pre, op', post, os, z', h3, h4, h5⟩ := (ih r.2).1 h2
        exact ⟨op :: pre, op', post, r.1 :: os, z', by rw [h3]; rfl,
          by simp only [runZip, h1, h4, ok_bind], h5⟩
      | ub => exact ⟨[], op, ops, [], z, rfl, rfl, h1⟩
      | panic => rw [h1] at h; cases h
      | hang => rw [h1] at h; cases h
    · rintro ⟨pre, op', post, os, z', h1, h2, h3⟩
      cases pre with
      | nil =>
        simp only [List.nil_append, List.cons.injEq] at h1
        simp only [runZip, ok.injEq, Prod.mk.injEq] at h2
        rw [← h1.1, ← h2.2] at h3
        simp only [runZip, h3, ub_bind]
      | cons a pre' =>
        simp only [List.cons_append, List.cons.injEq] at h1
        obtain ⟨rfl, h1⟩ := h1
        simp only [runZip] at h2
        obtain ⟨r, h4, h5⟩ := bind_eq_ok.1 h2
        obtain ⟨r', h6, h7⟩ := bind_eq_ok.1 h5
        have h8 := (ih r.2).2 ⟨pre', op', post, r'.1, r'.2, h1, h6, by
          simp only [ok.injEq, Prod.mk.injEq] at h7
          rw [h7.2]; exact h3⟩
        simp only [runZip, h4, h8, ok_bind, ub_bind]

/-- **C79**: any sequence of calls on a zip in a debug build. -/
theorem C79_zip_calls {Z γ : Type} [SIMDZippedIterator Z γ] {c : Cfg} {P : Z → Prop}
    (hd : c.debug = true) (h : SafeZip c P) :
    ∀ (ops : List ZipOp) (z : Z), P z → (runZip c z ops).Ensures fun r => P r.2 := by
  have step : ∀ (op : ZipOp) (z : Z), P z → (op.step c z).Ensures fun r => P r.2 := by
    intro op z hp
    cases op with
    | next => exact ensures_bind (h.next z hp) fun _ _ h2 => h2.1
    | end_ => exact ensures_bind (h.end_ z hp) fun _ _ h2 => h2.1
    | advance k => exact ensures_bind (h.advance z k hp) fun _ _ h2 => h2.1
    | finalize => exact ensures_bind (zfinalize_ensures hd h z hp) fun _ _ h2 => h2.1
    | len => exact ensures_bind (h.len z hp) fun _ _ _ => hp
    | scalarPos => exact ensures_bind (h.scalarPos z hp) fun _ _ _ => hp
    | scalarLen => exact ensures_bind (h.scalarLen z hp) fun _ _ _ => hp
    | vectorLen => exact ensures_bind (h.vectorLen z hp) fun _ _ _ => hp
    | vectorPos => exact ensures_bind (h.vectorPos z hp) fun _ _ _ => hp
  intro ops
  induction ops with
  | nil => intro z hp; exact hp
  | cons op ops ih =>
    intro z hp
    simp only [runZip]
    refine ensures_bind (step op z hp) fun r _ hr => ?_
    exact ensures_bind (ih r.2 hr) fun r2 _ h2 => h2

/-- A strided iterator over a slice: number of elements, stride, number of the iterator. -/
structure StrideShape where
  len : Nat
  stride : Nat
  base : Nat
deriving Repr, DecidableEq

/-- Element `e` and the `w - 1` after it are inside the collection, the indices being computed modulo
the size of `usize`. -/
def StrideShape.Inside (c : Cfg) (w e : Nat) (t : StrideShape) : Prop :=
  ∀ j, j < w → (t.base + t.stride * (e + j)) % c.usize < t.len

/-- Further iterators all of which are strided iterators over slices. -/
class StridedRest (R : Type) (γ : outParam Type) (w : Nat) [ZipRest R γ] where
  shapes : R → List StrideShape
  next_release : ∀ (c : Cfg), c.debug = false → ∀ (r : R) (e : Nat),
    (ZipRest.nextAll c r e = ub ∧ ∃ t ∈ shapes r, ¬ t.Inside c w e) ∨
    ((∃ v, ZipRest.nextAll c r e = ok v) ∧ ∀ t ∈ shapes r, t.Inside c w e)
  debug_safe : ∀ (c : Cfg), c.debug = true → SafeRest c fun _ : R => True

instance instStridedRestUnit (w : Nat) : StridedRest Unit Unit w where
  shapes _ := []
  next_release _ _ _ _ := .inr ⟨⟨_, rfl⟩, nofun⟩
  debug_safe _ _ := C79_rest_nil

/-- `next_unchecked` of a strided iterator in a release build. -/
theorem strided_next_unchecked {α : Type} [Packable α] {w : Nat} (c : Cfg) (hd : c.debug = false)
    (l : List α) (s k p : Nat) (d : Vector α w) (e : Nat) :
    (nextUnchecked c (⟨⟨l⟩, p, k, s, d⟩ : PackedStride (Slice α w) α w) e = ub ∧
      ¬ StrideShape.Inside c w e ⟨l.length, s, k⟩) ∨
    ((∃ v, nextUnchecked c (⟨⟨l⟩, p, k, s, d⟩ : PackedStride (Slice α w) α w) e = ok v) ∧
      StrideShape.Inside c w e ⟨l.length, s, k⟩) := by
  simp only [nextUnchecked, SIMDArray.loadUnchecked, PackedStride.loadUnchecked, hd, Bool.false_eq_true,
    if_false, ok_bind, uadd_release hd, umul_release hd, wrap_index]
  by_cases h : StrideShape.Inside c w e ⟨l.length, s, k⟩
  · refine .inr ⟨⟨_, strideLoop_ok (represents_slice c l) _ (fun j => (k + s * (e + j)) % c.usize)
      (fun _ _ => rfl) h w 0 _ (by omega)⟩, h⟩
  · refine .inl ⟨?_, h⟩
    refine strideLoop_bad hd l _ (fun j => (k + s * (e + j)) % c.usize) (fun _ _ => rfl) w 0 _
      (by omega) ?_
    simp only [StrideShape.Inside, Classical.not_forall] at h
    obtain ⟨j, hj, h3⟩ := h
    exact ⟨j, Nat.zero_le _, hj, Nat.le_of_not_lt h3⟩

instance instStridedRestCons {R α γ : Type} {w : Nat} [Packable α] [ZipRest R γ] [StridedRest R γ w] :
    StridedRest (PackedStride (Slice α w) α w × R) (Vector α w × γ) w where
  shapes r := ⟨r.1.iter.elems.length, r.1.stride, r.1.base⟩ :: StridedRest.shapes w r.2
  next_release c hd r e := by
    obtain ⟨⟨⟨l⟩, p, k, s, d⟩, r⟩ := r
    simp only [ZipRest.nextAll, List.mem_cons, exists_eq_or_imp, forall_eq_or_imp]
    rcases strided_next_unchecked c hd l s k p d e with ⟨h1, h2⟩ | ⟨⟨v, h1⟩, h2⟩
    · rw [h1]
      exact .inl ⟨rfl, .inl h2⟩
    · rw [h1]
      rcases StridedRest.next_release (w := w) c hd r e with ⟨h3, h4⟩ | ⟨⟨vs, h3⟩, h4⟩
      · simp only [ok_bind, h3]
        exact .inl ⟨rfl, .inr h4⟩
      · simp only [ok_bind, h3]
        exact .inr ⟨⟨_, rfl⟩, h2, h4⟩
  debug_safe c hd := by
    have h := C79_rest_cons hd (C79_stride hd (C79_slice hd (α := α) (w := w))).toSafeIterable
      (C79_stride_array hd (C79_slice hd)) (StridedRest.debug_safe (R := R) (w := w) c hd)
    exact ⟨fun r n _ => h.lenDiffers r n ⟨trivial, trivial⟩, fun r p _ => h.nextAll r p ⟨trivial, trivial⟩,
      fun r p n _ => h.endAll r p n ⟨trivial, trivial⟩⟩

section
variable {R α γ δ : Type} {w : Nat} [Packable α] [ZipRest R γ] [LawfulRest R γ δ w] [StridedRest R γ w]

/-- The calls with undefined behaviour in a release build, on a zip whose first iterator is at the
index `pos`: a `next` of which the first iterator's last index wraps around into its slice, while one of
the other indices, of it or of the others, is outside; and `end` strictly inside at most one vector
of rows. -/
def BadSzip (c : Cfg) (n s k w : Nat) (shapes : List StrideShape) : ZipOp → Nat → Prop
  | .next, pos => (pos + s * w) % c.usize < n ∧ ((∃ j, j < w ∧ n ≤ (pos + s * j) % c.usize) ∨
      ∃ t ∈ shapes, ¬ t.Inside c w (elemNo c s k pos))
  | .end_, pos => 0 < elemNo c s k pos ∧ elemNo c s k pos < n / s ∧ n / s ≤ w
  | _, _ => False

/-- One call in a release build, at any index. -/
theorem szip_step_any (c : Cfg) (hdb : c.debug = false) (l : List α) {s k : Nat} (hk : k < s)
    {rows : List (α × δ)} {dv : Vector (α × δ) w} {r : R} (hcol : strided s k l hk = rows.map Prod.fst)
    (hr : LawfulRest.Rep c r (rows.map Prod.snd) (dv.map Prod.snd)) (d : Vector α w)
    (pos : Nat) (hw : 0 < w) (hu : l.length + s * (w + 1) < c.usize) (hpos : pos < c.usize) (op : ZipOp) :
    (op.step c (⟨⟨⟨l⟩, pos, k, s, d⟩, r⟩ : Zip (PackedStride (Slice α w) α w) R) = ub ∧
      BadSzip c l.length s k w (StridedRest.shapes w r) op pos) ∨
    (¬ BadSzip c l.length s k w (StridedRest.shapes w r) op pos ∧
      (op.step c (⟨⟨⟨l⟩, pos, k, s, d⟩, r⟩ : Zip (PackedStride (Slice α w) α w) R) = panic ∨
       ∃ o q, q < c.usize ∧ op.step c (⟨⟨⟨l⟩, pos, k, s, d⟩, r⟩ : Zip (PackedStride (Slice α w) α w) R) =
        ok (o, ⟨⟨⟨l⟩, q, k, s, d⟩, r⟩))) := by
  have hs : 0 < s := by omega
  have hsw' : s * (w + 1) = s * w + s := Nat.mul_succ ..
  have h1w : w ≤ s * w := Nat.le_mul_of_pos_left _ hs
  have hu0 : 0 < c.usize := by omega
  have hrep := represents_stride (represents_slice c l) hk pos d hw hu
  have hlen : (strided s k l hk).length = l.length / s := strided_length ..
  have hrl : rows.length = l.length / s := by
    have := congrArg List.length hcol
    rw [strided_length, List.length_map] at this
    exact this.symm
  have hdl := Nat.div_le_self l.length s
  have hsub : usub c pos k = ok ((c.usize + pos - k) % c.usize) := by
    unfold usub
    split
    · next h =>
      congr 1
      rw [show c.usize + pos - k = (pos - k) + c.usize by omega, Nat.add_mod_right,
        Nat.mod_eq_of_lt (by omega)]
    · simp [hdb]
  have hsp : SIMDIterable.scalarPos c (⟨⟨l⟩, pos, k, s, d⟩ : PackedStride (Slice α w) α w) =
      ok (elemNo c s k pos) := by
    simp only [SIMDIterable.scalarPos, hsub, ok_bind]
    rw [udiv_ok hs]
    rfl
  have hadv : ∀ n, SIMDIterable.advance c (⟨⟨l⟩, pos, k, s, d⟩ : PackedStride (Slice α w) α w) n =
      ok ⟨⟨l⟩, (pos + n * s) % c.usize, k, s, d⟩ := by
    intro n
    simp only [SIMDIterable.advance, PackedStride.advance, uadd_release hdb, umul_release hdb, ok_bind,
      Nat.add_mod_mod]
  have hl : SIMDIterable.len c (⟨⟨l⟩, pos, k, s, d⟩ : PackedStride (Slice α w) α w) =
      ok ((strided s k l hk).length / w) :=
    (stride_driver (represents_slice c l) hk d hw hu).len 0
  have hmod : ∀ n, n % c.usize < c.usize := fun n => Nat.mod_lt _ hu0
  cases op with
  | next =>
    simp only [ZipOp.step, SIMDZippedIterator.next, Zip.next, hsp, ok_bind, C78_next_release c l pos d hdb]
    by_cases h1 : (pos + s * w) % c.usize < l.length
    · rw [if_pos h1]
      by_cases h2 : ∀ j, j < w → (pos + s * j) % c.usize < l.length
      · rw [dif_pos h2]
        simp only [ok_bind]
        rcases StridedRest.next_release (w := w) c hdb r (elemNo c s k pos) with ⟨h3, h4⟩ | ⟨⟨vs, h3⟩, h4⟩
        · rw [h3]
          exact .inl ⟨rfl, h1, .inr h4⟩
        · rw [h3]
          refine .inr ⟨?_, .inr ⟨_, _, hmod _, rfl⟩⟩
          rintro ⟨-, ⟨j, hj, h5⟩ | ⟨t, ht, h5⟩⟩
          · have := h2 j hj
            omega
          · exact h5 (h4 t ht)
      · rw [dif_neg h2]
        simp only [Classical.not_forall, Nat.not_lt] at h2
        obtain ⟨j, hj, h3⟩ := h2
        exact .inl ⟨rfl, h1, .inl ⟨j, hj, h3⟩⟩
    · rw [if_neg h1]
      exact .inr ⟨fun h => h1 h.1, .inr ⟨_, _, hpos, rfl⟩⟩
  | end_ =>
    have he := blanketEnd_exact hrep hsp (fun _ => hadv _) (by omega)
    simp only [ZipOp.step, SIMDZippedIterator.end_, Zip.end_, hsp, ok_bind, SIMDIterator.end_, he, hlen]
    by_cases h1 : l.length / s ≤ elemNo c s k pos
    · rw [if_pos h1]
      exact .inr ⟨by simp only [BadSzip]; omega, .inr ⟨_, _, hpos, rfl⟩⟩
    · rw [if_neg h1]
      by_cases h2 : w < l.length / s - elemNo c s k pos
      · rw [if_pos h2]
        exact .inr ⟨by simp only [BadSzip]; omega, .inl rfl⟩
      · rw [if_neg h2]
        by_cases h3 : 0 < elemNo c s k pos ∧ l.length / s ≤ w
        · rw [if_pos h3]
          exact .inl ⟨by simp [badAccess, hdb], h3.1, by omega, h3.2⟩
        · rw [if_neg h3]
          have h5 := LawfulRest.end_ok (elemNo c s k pos) (by simp; omega) (by simp; omega)
            (by simp; omega) (by omega) hr
          simp only [List.length_map, hrl] at h5
          simp only [ok_bind, h5]
          exact .inr ⟨by simp only [BadSzip]; omega, .inr ⟨_, _, hmod _, rfl⟩⟩
  | advance n =>
    refine .inr ⟨id, .inr ⟨.unit, _, hmod (pos + n * s), ?_⟩⟩
    simp only [ZipOp.step, SIMDZippedIterator.advance, hadv, ok_bind]
  | finalize =>
    refine .inr ⟨id, .inr ?_⟩
    have hsl : SIMDZippedIterator.scalarLen c
        (⟨⟨⟨l⟩, pos, k, s, d⟩, r⟩ : Zip (PackedStride (Slice α w) α w) R) =
        ok ((strided s k l hk).length / w) := hl
    simp only [ZipOp.step, zfinalize, hsl, ok_bind, SIMDZippedIterator.scalarPos, hsp,
      SIMDZippedIterator.advance]
    have : ∃ x, usub c ((strided s k l hk).length / w) (elemNo c s k pos) = ok x := by
      unfold usub
      split
      · exact ⟨_, rfl⟩
      · simp [hdb]
    obtain ⟨x, hx⟩ := this
    rw [hx]
    simp only [ok_bind, hadv]
    exact ⟨_, _, hmod _, rfl⟩
  | len =>
    refine .inr ⟨id, .inr ⟨.num ((strided s k l hk).length / w), pos, hpos, ?_⟩⟩
    simp only [ZipOp.step, SIMDZippedIterator.len, hl, ok_bind]
  | scalarPos =>
    refine .inr ⟨id, .inr ⟨.num (elemNo c s k pos), pos, hpos, ?_⟩⟩
    simp only [ZipOp.step, SIMDZippedIterator.scalarPos, hsp, ok_bind]
  | scalarLen =>
    refine .inr ⟨id, .inr ⟨.num ((strided s k l hk).length / w), pos, hpos, ?_⟩⟩
    simp only [ZipOp.step, SIMDZippedIterator.scalarLen, hl, ok_bind]
  | vectorLen =>
    refine .inr ⟨id, .inr ⟨.num ((strided s k l hk).length / w / w), pos, hpos, ?_⟩⟩
    simp only [ZipOp.step, SIMDZippedIterator.vectorLen, hl, ok_bind, udiv_ok hw]
  | vectorPos =>
    refine .inr ⟨id, .inr ⟨.num (elemNo c s k pos / w), pos, hpos, ?_⟩⟩
    simp only [ZipOp.step, SIMDZippedIterator.vectorPos, hsp, ok_bind, udiv_ok hw]

/-- Whatever is called, only the index of the first iterator changes. -/
theorem szip_run_any (c : Cfg) (hdb : c.debug = false) (l : List α) {s k : Nat} (hk : k < s)
    {rows : List (α × δ)} {dv : Vector (α × δ) w} {r : R} (hcol : strided s k l hk = rows.map Prod.fst)
    (hr : LawfulRest.Rep c r (rows.map Prod.snd) (dv.map Prod.snd)) (d : Vector α w)
    (hw : 0 < w) (hu : l.length + s * (w + 1) < c.usize) :
    ∀ (ops : List ZipOp) (pos : Nat) (os : List (ZipOut (Vector α w × γ)))
      (z : Zip (PackedStride (Slice α w) α w) R), pos < c.usize →
      runZip c (⟨⟨⟨l⟩, pos, k, s, d⟩, r⟩ : Zip (PackedStride (Slice α w) α w) R) ops = ok (os, z) →
      ∃ q, q < c.usize ∧ z = ⟨⟨⟨l⟩, q, k, s, d⟩, r⟩ := by
  intro ops
  induction ops with
  | nil =>
    intro pos os z hpos h
    simp only [runZip, ok.injEq, Prod.mk.injEq] at h
    exact ⟨pos, hpos, h.2.symm⟩
  | cons op ops ih =>
    intro pos os z hpos h
    simp only [runZip] at h
    rcases szip_step_any c hdb l hk hcol hr d pos hw hu hpos op with ⟨h1, -⟩ | ⟨-, h1 | ⟨o, q, hq, h1⟩⟩
    · rw [h1] at h; cases h
    · rw [h1] at h; cases h
    · rw [h1] at h
      simp only [ok_bind] at h
      obtain ⟨r', h2, h3⟩ := bind_eq_ok.1 h
      simp only [ok.injEq, Prod.mk.injEq] at h3
      rw [← h3.2]
      exact ih q r'.1 r'.2 hq h2

/-- **C140 is false, exactly, without restriction**: any sequence of calls, with any amounts, on a zip
of any number of strided iterators over slices, with equally many elements, the first one at any
index, has undefined behaviour if and only if the build is a release build and some call is one of
`BadSzip` at the index reached by the calls before it. -/
theorem C140_exact_any (c : Cfg) (l : List α) {s k : Nat} (hk : k < s)
    {rows : List (α × δ)} {dv : Vector (α × δ) w} {r : R} (hcol : strided s k l hk = rows.map Prod.fst)
    (hr : LawfulRest.Rep c r (rows.map Prod.snd) (dv.map Prod.snd)) (d : Vector α w)
    (pos : Nat) (hw : 0 < w) (hu : l.length + s * (w + 1) < c.usize) (hpos : pos < c.usize)
    (ops : List ZipOp) :
    runZip c (⟨⟨⟨l⟩, pos, k, s, d⟩, r⟩ : Zip (PackedStride (Slice α w) α w) R) ops = ub ↔
      c.debug = false ∧ ∃ pre op post os q, ops = pre ++ op :: post ∧
        runZip c (⟨⟨⟨l⟩, pos, k, s, d⟩, r⟩ : Zip (PackedStride (Slice α w) α w) R) pre =
          ok (os, ⟨⟨⟨l⟩, q, k, s, d⟩, r⟩) ∧
        BadSzip c l.length s k w (StridedRest.shapes w r) op q := by
  cases hdb : c.debug with
  | true =>
    constructor
    · intro h
      have := C79_zip_calls hdb (C79_zip (C79_stride hdb (C79_slice hdb (α := α) (w := w)))
        (StridedRest.debug_safe (R := R) (w := w) c hdb)) ops ⟨⟨⟨l⟩, pos, k, s, d⟩, r⟩ ⟨trivial, trivial⟩
      rw [h] at this
      exact this.elim
    · rintro ⟨h, -⟩
      cases h
  | false =>
    rw [runZip_ub_iff]
    constructor
    · rintro ⟨pre, op, post, os, z, h1, h2, h3⟩
      obtain ⟨q, hq, rfl⟩ := szip_run_any c hdb l hk hcol hr d hw hu pre pos os z hpos h2
      rcases szip_step_any c hdb l hk hcol hr d q hw hu hq op with ⟨-, h4⟩ | ⟨-, h4 | ⟨o, q', -, h4⟩⟩
      · exact ⟨rfl, pre, op, post, os, q, h1, h2, h4⟩
      · rw [h4] at h3; cases h3
      · rw [h4] at h3; cases h3
    · rintro ⟨-, pre, op, post, os, q, h1, h2, h3⟩
      obtain ⟨q', hq, e⟩ := szip_run_any c hdb l hk hcol hr d hw hu pre pos os _ hpos h2
      obtain rfl : q = q' := by
        have := congrArg (fun z : Zip (PackedStride (Slice α w) α w) R => z.first.pos) e
        exact this
      rcases szip_step_any c hdb l hk hcol hr d q hw hu hq op with ⟨h4, -⟩ | ⟨h4, -⟩
      · exact ⟨pre, op, post, os, _, h1, h2, h4⟩
      · exact absurd h3 h4

end

/-- **C140**, `stride_two`: the same for the pairs of consecutive elements; the zip is at the index
`pos`, which a sequence of calls on a fresh zip makes any even number. The two iterators read the same slice, the
second one at odd indices. -/
theorem C140_two_exact_any {α : Type} [Packable α] {w : Nat} (c : Cfg) (l : List α) (dx dy : Vector α w)
    (pos : Nat) (hw : 0 < w) (hu : l.length + 2 * (w + 1) < c.usize) (hpos : pos < c.usize)
    (ops : List ZipOp) :
    runZip c (⟨⟨⟨l⟩, pos, 0, 2, dx⟩, (strideIt l 2 1 dy 0, ())⟩ :
        Zip (PackedStride (Slice α w) α w) (PackedStride (Slice α w) α w × Unit)) ops = ub ↔
      c.debug = false ∧ ∃ pre op post os q, ops = pre ++ op :: post ∧
        runZip c (⟨⟨⟨l⟩, pos, 0, 2, dx⟩, (strideIt l 2 1 dy 0, ())⟩ :
          Zip (PackedStride (Slice α w) α w) (PackedStride (Slice α w) α w × Unit)) pre =
          ok (os, ⟨⟨⟨l⟩, q, 0, 2, dx⟩, (strideIt l 2 1 dy 0, ())⟩) ∧
        ((op = .next ∧ (q + 2 * w) % c.usize < l.length ∧
          ∃ j, j < w ∧ (l.length ≤ (q + 2 * j) % c.usize ∨ l.length ≤ (2 * (q / 2 + j) + 1) % c.usize)) ∨
        (op = .end_ ∧ 1 < q ∧ q / 2 < l.length / 2 ∧ l.length / 2 ≤ w)) := by
  obtain ⟨e0, e1, e3, hr⟩ := zipTwo_rows c l dx dy hw hu
  rw [C140_exact_any c l (show 0 < 2 by omega) e1 hr dx pos hw hu hpos ops]
  refine and_congr_right fun hdb => ?_
  refine exists_congr fun pre => exists_congr fun op => exists_congr fun post => exists_congr fun os =>
    exists_congr fun q => and_congr_right fun _ => and_congr_right fun h2 => ?_
  obtain ⟨q', hq, e⟩ := szip_run_any c hdb l (show 0 < 2 by omega) e1 hr dx hw hu pre pos os _ hpos h2
  obtain rfl : q = q' := congrArg (fun z : Zip (PackedStride (Slice α w) α w)
    (PackedStride (Slice α w) α w × Unit) => z.first.pos) e
  have en : elemNo c 2 0 q = q / 2 := by
    rw [elemNo, Nat.sub_zero, Nat.add_mod_left, Nat.mod_eq_of_lt hq]
  cases op <;> simp only [BadSzip, en, reduceCtorEq, false_and, or_false, true_and, false_or]
  · refine and_congr_right fun _ => ?_
    simp only [StridedRest.shapes, List.mem_singleton, exists_eq_left, StrideShape.Inside,
      Classical.not_forall, Nat.not_lt]
    constructor
    · rintro (⟨j, hj, h⟩ | ⟨j, hj, h⟩)
      · exact ⟨j, hj, .inl h⟩
      · exact ⟨j, hj, .inr (by rw [Nat.add_comm (2 * _)]; exact h)⟩
    · rintro ⟨j, hj, h | h⟩
      · exact .inl ⟨j, hj, h⟩
      · exact .inr ⟨j, hj, by rw [Nat.add_comm (2 * _)] at h; exact h⟩
  · have : 0 < q / 2 ↔ 1 < q := by omega
    rw [this]

set_option synthInstance.maxSize 2000 in
/-- The pairs of `stride_two`: after an advance which wraps around, `next` of the first iterator reads
outside of the slice. -/
example : runZip release64 (zipTwoAt [1#8, 2, 3, 4, 5] #v[0, 0] #v[0, 0] 0) [.advance (2 ^ 63 - 1), .next] = ub ∧
    runZip debug64 (zipTwoAt [1#8, 2, 3, 4, 5] #v[0, 0] #v[0, 0] 0) [.advance (2 ^ 63 - 1), .next] = panic := by
  decide +kernel

set_option synthInstance.maxSize 2000 in
/-- An advance which wraps around to an index inside is harmless: the pairs are handed out again. -/
example : (do
    let (os, _) ← runZip release64 (zipTwoAt [1#8, 2, 3, 4, 5] #v[0, 0] #v[0, 0] 0)
      [.next, .advance (2 ^ 63 - 2), .next]
    ok (os.flatMap ZipOut.delivered)) = ok [(1, 2), (3, 4), (1, 2), (3, 4)] := by
  decide +kernel

example := (C140_two_exact_any release64 [1#8, 2, 3, 4, 5] #v[0, 0] #v[0, 0] 0 (by decide) (by decide)
  (by decide) [.advance (2 ^ 63 - 1), .next]).2 ⟨rfl, [.advance (2 ^ 63 - 1)], .next, [], _, _, rfl, rfl,
    .inl ⟨rfl, by decide, 0, by decide, .inl (by decide)⟩⟩

end Faster
