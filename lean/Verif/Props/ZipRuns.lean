import Verif.Props.StridedZipTrace
import Verif.Props.TraceWrap
/-
The order in which zips hand out rows, with `finalize` and with amounts of `advance` which overflow:
in debug builds all sequences of calls keep the order (C89, C140), in release builds every `finalize` and
every position which wraps around starts one more run (C89).
-/
namespace Faster
open Res SIMDSized SIMDIterable SIMDIterator

section
variable {R α γ δ : Type} {w : Nat} [Packable α] [ZipRest R γ] [LawfulRest R γ δ w]
variable {c : Cfg} {rows : List (α × δ)} {dv : Vector (α × δ) w} {r : R}

/-- The calls of `finalize` which can move back: all of them in release builds. -/
def backs (c : Cfg) (ops : List ZipOp) : Nat := if c.debug then 0 else ops.count .finalize

theorem backs_cons (c : Cfg) (op : ZipOp) (ops : List ZipOp) :
    backs c (op :: ops) = backs c ops + if c.debug = false ∧ op = .finalize then 1 else 0 := by
  unfold backs
  cases c.debug <;> simp [List.count_cons]

theorem zip_order_runs (hr : LawfulRest.Rep c r (rows.map Prod.snd) (dv.map Prod.snd)) (hw : 0 < w)
    (hlen : rows.length + w < c.usize) :
    ∀ (ops : List ZipOp) (p : Nat) (os : List (ZipOut (Vector α w × γ)))
      (z : Zip (SIMDIter (Slice α w) α w) R), p < c.usize →
    runZip c (zipAt rows dv r p) ops = ok (os, z) →
    ∃ (ros : List (IterOut (α × δ) w)) (s : List (α × δ)) (runs : List (List (α × δ))) (m : Nat),
      os = ros.map (splitOut R) ∧ (∀ ro ∈ ros, ro.notElem = true) ∧
      ros.flatMap IterOut.delivered = s ++ runs.flatten ∧ s.Sublist (rows.drop p) ∧
      (∀ t ∈ runs, t.Sublist rows) ∧ runs.length ≤ backs c ops + m ∧
      (c.debug = true → m = 0) ∧
      m * (c.usize - rows.length) ≤ max p rows.length - rows.length + zadvanced ops := by
  intro ops
  induction ops with
  | nil =>
    intro p os z _ h
    simp only [runZip, ok.injEq, Prod.mk.injEq] at h
    exact ⟨[], [], [], 0, h.1.symm, by simp, rfl, List.nil_sublist _, by simp, by simp, by simp, by simp⟩
  | cons op ops ih =>
    intro p os z hp h
    have hL : rows.length / w ≤ rows.length := Nat.div_le_self _ _
    rw [backs_cons]
    by_cases hf : op = .finalize
    · subst hf
      obtain ⟨h1, -, -⟩ := C87_finalize_exact (r := r) (dv := dv) hw hlen p hp
      simp only [runZip, h1] at h
      by_cases hb : c.debug = true ∧ rows.length / w < p
      · rw [if_pos hb, panic_bind] at h
        cases h
      · rw [if_neg hb, ok_bind] at h
        cases h2 : runZip c (zipAt rows dv r (rows.length / w)) ops with
        | ok t =>
          rw [h2] at h
          simp only [ok_bind, ok.injEq, Prod.mk.injEq] at h
          obtain ⟨ros, s, runs, m, e1, e2, e3, e4, e5, e6, e7, e8⟩ :=
            ih (rows.length / w) t.1 z (by omega) (by rw [h2, ← h.2])
          refine ⟨.unit :: ros, ?_⟩
          have hos : os = (IterOut.unit :: ros).map (splitOut R) := by
            rw [← h.1, e1]; rfl
          have hne : ∀ ro ∈ (IterOut.unit :: ros : List (IterOut (α × δ) w)), ro.notElem = true := by
            simpa using ⟨rfl, e2⟩
          have hdel : (IterOut.unit :: ros).flatMap IterOut.delivered = s ++ runs.flatten := by
            rw [List.flatMap_cons, e3]; rfl
          cases hdb : c.debug with
          | true =>
            have hpq : p ≤ rows.length / w := Nat.le_of_not_lt fun h => hb ⟨hdb, h⟩
            refine ⟨s, runs, m, hos, hne, hdel, e4.trans ?_, e5, by simpa using e6,
              fun _ => e7 hdb, ?_⟩
            · rw [← Nat.add_sub_cancel' hpq, ← List.drop_drop]
              exact List.drop_sublist _ _
            · simp only [zadvanced]; omega
          | false =>
            refine ⟨[], s :: runs, m, hos, hne, hdel, List.nil_sublist _, ?_, ?_, ?_, ?_⟩
            · intro t ht
              rcases List.mem_cons.mp ht with rfl | ht
              · exact e4.trans (List.drop_sublist _ _)
              · exact e5 t ht
            · simp; omega
            · simp
            · simp only [zadvanced]; omega
        | panic => rw [h2] at h; cases h
        | ub => rw [h2] at h; cases h
        | hang => rw [h2] at h; cases h
    · obtain ⟨ro, os', q, rfl, hne, hq, hm, hrun⟩ := runZip_cons_ok hr hw hlen hp hf h
      obtain ⟨ros, s, runs, m, e1, e2, e3, e4, e5, e6, e7, e8⟩ := ih q os' z hq hrun
      refine ⟨ro :: ros, ?_⟩
      have hos : splitOut R ro :: os' = (ro :: ros).map (splitOut R) := by rw [e1]; rfl
      have hne' : ∀ r' ∈ ro :: ros, r'.notElem = true := by simpa [hne] using e2
      simp only [hf, and_false, if_false, Nat.add_zero]
      rw [List.flatMap_cons, e3]
      cases op with
      | finalize => exact absurd rfl hf
      | advance k =>
        obtain ⟨ho, hk⟩ := hm
        rw [ho, List.nil_append]
        simp only [zadvanced]
        rcases hk with rfl | ⟨h4, h5, rfl⟩
        · refine ⟨s, runs, m, hos, hne', rfl, e4.trans ?_, e5, e6, e7, by omega⟩
          rw [← List.drop_drop]
          exact List.drop_sublist _ _
        · refine ⟨[], s :: runs, m + 1, hos, hne', rfl, List.nil_sublist _, ?_, ?_, ?_, ?_⟩
          · intro t ht
            rcases List.mem_cons.mp ht with rfl | ht
            · exact e4.trans (List.drop_sublist _ _)
            · exact e5 t ht
          · simp; omega
          · rw [h4]; simp
          · have h6 : (p + k) % c.usize ≤ p + k - c.usize := by
              rw [Nat.mod_eq_sub_mod h5]
              exact Nat.mod_le _ _
            rw [Nat.succ_mul]
            omega
      | _ =>
        obtain ⟨ho, h5, h6⟩ := hm
        have e : rows.drop p = (rows.take q).drop p ++ rows.drop q := by
          have := List.take_append_drop (q - p) (rows.drop p)
          rw [List.drop_drop, Nat.add_sub_cancel' h5] at this
          rw [List.drop_take, this]
        refine ⟨ro.delivered ++ s, runs, m, hos, hne', by simp, ?_, e5, e6, e7, ?_⟩
        · rw [e, ho]
          exact (List.Sublist.refl _).append e4
        · simp only [zadvanced] at e8 ⊢
          omega

/-- **C89** in debug builds, without restriction: whatever calls are made, with whatever amounts, the
rows handed out are rows in their order, each at most once. -/
theorem C89_in_order_debug (hr : LawfulRest.Rep c r (rows.map Prod.snd) (dv.map Prod.snd)) (hw : 0 < w)
    (hlen : rows.length + w < c.usize) (hd : c.debug = true) (ops : List ZipOp) (p : Nat)
    (os : List (ZipOut (Vector α w × γ))) (z : Zip (SIMDIter (Slice α w) α w) R) (hp : p < c.usize)
    (h : runZip c (zipAt rows dv r p) ops = ok (os, z)) :
    ∃ ros : List (IterOut (α × δ) w), os = ros.map (splitOut R) ∧ (∀ ro ∈ ros, ro.notElem = true) ∧
      (ros.flatMap IterOut.delivered).Sublist (rows.drop p) := by
  obtain ⟨ros, s, runs, m, e1, e2, e3, e4, -, e6, e7, -⟩ := zip_order_runs hr hw hlen ops p os z hp h
  refine ⟨ros, e1, e2, ?_⟩
  have : runs = [] := by
    rw [e7 hd, backs, if_pos hd] at e6
    exact List.eq_nil_of_length_eq_zero (by omega)
  rw [e3, this, List.flatten_nil, List.append_nil]
  exact e4

/-- **C89** without restriction: whatever calls are made in whatever order, the rows are handed out
in runs, each of which is in order without repetitions. There is one run, and in release builds one more
for every `finalize`, and for every `usize::MAX + 1 - len` by which the calls of `advance` exceed the end. -/
theorem C89_runs (hr : LawfulRest.Rep c r (rows.map Prod.snd) (dv.map Prod.snd)) (hw : 0 < w)
    (hlen : rows.length + w < c.usize) (ops : List ZipOp) (p : Nat)
    (os : List (ZipOut (Vector α w × γ))) (z : Zip (SIMDIter (Slice α w) α w) R) (hp : p < c.usize)
    (h : runZip c (zipAt rows dv r p) ops = ok (os, z)) :
    ∃ (ros : List (IterOut (α × δ) w)) (runs : List (List (α × δ))),
      os = ros.map (splitOut R) ∧ (∀ ro ∈ ros, ro.notElem = true) ∧
      ros.flatMap IterOut.delivered = runs.flatten ∧ (∀ t ∈ runs, t.Sublist rows) ∧
      runs.length ≤ 1 + ops.count .finalize +
        (max p rows.length - rows.length + zadvanced ops) / (c.usize - rows.length) := by
  obtain ⟨ros, s, runs, m, e1, e2, e3, e4, e5, e6, e7, e8⟩ := zip_order_runs hr hw hlen ops p os z hp h
  refine ⟨ros, s :: runs, e1, e2, e3, ?_, ?_⟩
  · intro t ht
    rcases List.mem_cons.mp ht with rfl | ht
    · exact e4.trans (List.drop_sublist _ _)
    · exact e5 t ht
  · have h1 := (Nat.le_div_iff_mul_le (by omega)).mpr e8
    have h2 : backs c ops ≤ ops.count .finalize := by unfold backs; split <;> omega
    rw [List.length_cons]
    omega

/-- One call on a strided zip in a debug build, at any index. -/
theorem szip_step_debug (hdb : c.debug = true) {l : List α} {s k : Nat} (hk : k < s)
    (hcol : strided s k l hk = rows.map Prod.fst)
    (hr : LawfulRest.Rep c r (rows.map Prod.snd) (dv.map Prod.snd)) (p : Nat) (hw : 0 < w)
    (hu : l.length + s * (w + 1) < c.usize) (hp : k + s * p < c.usize) (op : ZipOp) :
    op.step c (szipAt l s k (dv.map Prod.fst) r p) = panic ∨
     ∃ ro q, op.step c (szipAt l s k (dv.map Prod.fst) r p) =
        ok (splitOut R ro, szipAt l s k (dv.map Prod.fst) r q) ∧
      ro.notElem = true ∧ k + s * q < c.usize ∧ p ≤ q ∧
      (ro.delivered = [] ∨ ro.delivered = (rows.take q).drop p) := by
  have hs : 0 < s := by omega
  have hsw' : s * (w + 1) = s * w + s := Nat.mul_succ ..
  have hrl : rows.length = l.length / s := by
    have := congrArg List.length hcol
    rw [strided_length, List.length_map] at this
    exact this.symm
  have hmono : ∀ a b, a ≤ b → s * a ≤ s * b := fun a b h => Nat.mul_le_mul_left s h
  have hdl := Nat.div_mul_le_self l.length s
  rw [← hrl, Nat.mul_comm] at hdl
  have hrs := hmono _ _ (Nat.div_le_self rows.length w)
  have hd := stride_driver (represents_slice c l) hk (dv.map Prod.fst) hw hu
  have hl : SIMDIterable.len c (strideIt l s k (dv.map Prod.fst) p) = ok (rows.length / w) := by
    have := hd.len p
    rw [hcol] at this
    simpa using this
  have hsl : SIMDZippedIterator.scalarLen c (szipAt l s k (dv.map Prod.fst) r p) =
      ok (rows.length / w) := hl
  have hfin : ¬ p ≤ rows.length / w →
      ZipOp.finalize.step c (szipAt l s k (dv.map Prod.fst) r p) = panic := by
    intro hpq
    simp only [ZipOp.step, zfinalize, hsl, ok_bind, SIMDZippedIterator.scalarPos,
      strideIt_pos c l hk _ p]
    unfold usub
    rw [if_neg hpq]
    simp [hdb]
  by_cases hfit : k + s * (max (p + op.amount) (l.length / s) + w) < c.usize
  · rcases szip_step_spec hk hcol hr (max (p + op.amount) (l.length / s)) p hw hu hfit (by omega) op
      (by omega) with ⟨-, h1, -⟩ | ⟨-, h1 | ⟨ro, q, h1, h2, h3⟩⟩
    · rw [hdb] at h1; cases h1
    · exact .inl h1
    · cases op with
      | advance n =>
        obtain ⟨h4, rfl⟩ := h3
        refine .inr ⟨ro, _, h1, h2, ?_, by omega, .inl h4⟩
        have := hmono (p + n) (max (p + n) (l.length / s) + w) (by omega)
        simp only [ZipOp.amount] at hfit
        omega
      | finalize =>
        obtain ⟨h4, rfl⟩ := h3
        by_cases hpq : p ≤ rows.length / w
        · exact .inr ⟨ro, _, h1, h2, by omega, hpq, .inl h4⟩
        · left
          exact hfin hpq
      | _ =>
        obtain ⟨h4, h5, h6⟩ := h3
        refine .inr ⟨ro, q, h1, h2, ?_, h5, .inr h4⟩
        by_cases h7 : p < q
        · have := hmono _ _ (h6 h7); omega
        · have : q = p := by omega
          rw [this]; exact hp
  · have hbig : ¬ k + s * (p + op.amount + w) < c.usize := by
      by_cases h : l.length / s ≤ p + op.amount
      · rwa [Nat.max_eq_left h] at hfit
      · rw [Nat.max_eq_right (by omega), ← hrl, Nat.mul_add] at hfit
        omega
    have hpast : rows.length ≤ p + op.amount := by
      refine Nat.le_of_not_lt fun h => hbig ?_
      have := hmono _ _ (show p + op.amount + w ≤ rows.length + w by omega)
      rw [Nat.mul_add s rows.length] at this
      omega
    rw [Nat.mul_add] at hbig
    have hle := Nat.div_le_self rows.length w
    cases op with
    | next =>
      left
      simp only [ZipOp.amount, Nat.add_zero] at hbig
      have h2 : next c (strideIt l s k (dv.map Prod.fst) p) = panic := by
        simp only [SIMDIterable.next, PackedStride.next]
        rw [umul_ok (by omega)]
        simp only [ok_bind]
        unfold uadd
        rw [if_neg (by omega)]
        simp [hdb]
      simp only [ZipOp.step, SIMDZippedIterator.next, Zip.next, h2, panic_bind,
        strideIt_pos c l hk _ p, ok_bind]
    | end_ =>
      simp only [ZipOp.amount, Nat.add_zero] at hpast
      have hrep := represents_stride (represents_slice c l) hk (k + s * p) (dv.map Prod.fst) hw hu
      rw [hcol] at hrep
      have h1w : w ≤ s * w := Nat.le_mul_of_pos_left _ hs
      have hrs' : rows.length ≤ s * rows.length := Nat.le_mul_of_pos_left _ hs
      have he := blanketEnd_exact hrep (strideIt_pos c l hk _ p)
        (t' := strideIt l s k (dv.map Prod.fst) p) (fun h => by simp at h; omega) (by simp; omega)
      refine .inr ⟨.tail none, p, ?_, rfl, hp, Nat.le_refl _, .inl rfl⟩
      simp only [ZipOp.step, SIMDZippedIterator.end_, Zip.end_, strideIt_pos c l hk _ p, ok_bind,
        SIMDIterator.end_, he, List.length_map]
      rw [if_pos hpast]
      rfl
    | advance n =>
      by_cases h : k + s * (p + n) < c.usize
      · refine .inr ⟨.unit, p + n, ?_, rfl, h, by omega, .inl rfl⟩
        simp only [ZipOp.step, SIMDZippedIterator.advance, strideIt_advance c l _ p n h, ok_bind]
        rfl
      · left
        have h2 : advance c (strideIt l s k (dv.map Prod.fst) p) n = Res.panic := by
          simp only [SIMDIterable.advance, PackedStride.advance]
          rw [Nat.mul_add, Nat.mul_comm s n] at h
          unfold umul
          split
          · simp only [ok_bind]
            unfold uadd
            rw [if_neg (by omega)]
            simp [hdb]
          · simp
        simp only [ZipOp.step, SIMDZippedIterator.advance, h2, panic_bind]
    | finalize =>
      by_cases hpq : p ≤ rows.length / w
      · refine .inr ⟨.unit, rows.length / w, ?_, rfl, by omega, hpq, .inl rfl⟩
        simp only [ZipOp.step, zfinalize, hsl, ok_bind, SIMDZippedIterator.scalarPos,
          strideIt_pos c l hk _ p, SIMDZippedIterator.advance, usub_ok hpq]
        rw [strideIt_advance c l _ p _ (by rw [Nat.add_sub_cancel' hpq]; omega), Nat.add_sub_cancel' hpq]
        rfl
      · exact .inl (hfin hpq)
    | len =>
      refine .inr ⟨.num (rows.length / w), p, ?_, rfl, hp, Nat.le_refl _, .inl rfl⟩
      simp only [ZipOp.step, SIMDZippedIterator.len, hl, ok_bind]
      rfl
    | scalarPos =>
      refine .inr ⟨.num p, p, ?_, rfl, hp, Nat.le_refl _, .inl rfl⟩
      simp only [ZipOp.step, SIMDZippedIterator.scalarPos, strideIt_pos c l hk _ p, ok_bind]
      rfl
    | scalarLen =>
      refine .inr ⟨.num (rows.length / w), p, ?_, rfl, hp, Nat.le_refl _, .inl rfl⟩
      simp only [ZipOp.step, SIMDZippedIterator.scalarLen, hl, ok_bind]
      rfl
    | vectorLen =>
      refine .inr ⟨.num (rows.length / w / w), p, ?_, rfl, hp, Nat.le_refl _, .inl rfl⟩
      simp only [ZipOp.step, SIMDZippedIterator.vectorLen, hl, ok_bind, udiv_ok hw]
      rfl
    | vectorPos =>
      refine .inr ⟨.num (p / w), p, ?_, rfl, hp, Nat.le_refl _, .inl rfl⟩
      simp only [ZipOp.step, SIMDZippedIterator.vectorPos, strideIt_pos c l hk _ p, ok_bind, udiv_ok hw]
      rfl

/-- **C140** in debug builds, without restriction: whatever calls are made, with whatever amounts, the
rows handed out are rows in their order, each at most once; and no sequence of calls is undefined
behaviour or does not return. -/
theorem C140_in_order_debug (hdb : c.debug = true) {l : List α} {s k : Nat} (hk : k < s)
    (hcol : strided s k l hk = rows.map Prod.fst)
    (hr : LawfulRest.Rep c r (rows.map Prod.snd) (dv.map Prod.snd)) (hw : 0 < w)
    (hu : l.length + s * (w + 1) < c.usize) :
    ∀ (ops : List ZipOp) (p : Nat), k + s * p < c.usize →
    runZip c (szipAt l s k (dv.map Prod.fst) r p) ops = panic ∨
    ∃ (ros : List (IterOut (α × δ) w)) (q : Nat),
      runZip c (szipAt l s k (dv.map Prod.fst) r p) ops =
        ok (ros.map (splitOut R), szipAt l s k (dv.map Prod.fst) r q) ∧
      (∀ ro ∈ ros, ro.notElem = true) ∧ p ≤ q ∧
      (ros.flatMap IterOut.delivered).Sublist ((rows.take q).drop p) := by
  intro ops
  induction ops with
  | nil => exact fun p _ => .inr ⟨[], p, rfl, by simp, Nat.le_refl _, List.nil_sublist _⟩
  | cons op ops ih =>
    intro p hp
    simp only [runZip]
    rcases szip_step_debug hdb hk hcol hr p hw hu hp op with h1 | ⟨ro, q, h1, h2, h3, h4, h5⟩
    · rw [h1]
      exact .inl rfl
    · rw [h1]
      simp only [ok_bind]
      rcases ih q h3 with h6 | ⟨ros, q', h6, h7, h8, h9⟩
      · rw [h6]
        exact .inl rfl
      · rw [h6]
        refine .inr ⟨ro :: ros, q', rfl, by simpa [h2] using h7, by omega, ?_⟩
        rw [List.flatMap_cons]
        have e : (rows.take q').drop p = (rows.take q).drop p ++ (rows.take q').drop q := by
          have := List.take_append_drop (q - p) ((rows.take q').drop p)
          rw [List.drop_drop, Nat.add_sub_cancel' h4] at this
          rw [← this, List.take_drop, Nat.add_sub_cancel' h4, List.take_take, Nat.min_eq_left h8]
        rw [e]
        rcases h5 with h5 | h5
        · rw [h5]
          exact (List.nil_sublist _).append h9
        · rw [h5]
          exact (List.Sublist.refl _).append h9

end

section
variable {α β : Type} [Packable α] {w : Nat}

/-- **C89** in debug builds, two slices: the pairs handed out by any sequence of calls, with any
amounts, are pairs of elements at one index, in order, each at most once. -/
theorem C89_two_in_order_debug (c : Cfg) (xs : List α) (ys : List β) (dx : Vector α w) (dy : Vector β w)
    (q : Nat) (hd : c.debug = true) (h : xs.length = ys.length) (hw : 0 < w)
    (hlen : xs.length + w < c.usize) (ops : List ZipOp)
    (os : List (ZipOut (Vector α w × Vector β w × Unit)))
    (z : Zip (SIMDIter (Slice α w) α w) (SIMDIter (Slice β w) β w × Unit))
    (hrun : runZip c (zip2At xs ys dx dy 0 q) ops = ok (os, z)) :
    (os.flatMap ZipOut.delivered).Sublist (xs.zip ys) := by
  obtain ⟨e0, e1, e2, e3, e4⟩ := zip2_rows xs ys dx dy h
  obtain ⟨-, -, h3⟩ := rows2_spec c xs ys dx dy q h hw hlen
  obtain ⟨ros, rfl, hne, hs⟩ := C89_in_order_debug (c := c) (rows := rows2 xs ys)
    (dv := Vector.zipWith (fun a b => (a, b, ())) dx dy) h3 hw (by omega) hd ops 0 os z (by omega)
    (by simpa only [zipAt, e1, e3] using hrun)
  rw [splitOuts_delivered ros hne]
  have e5 : xs.zip ys = (rows2 xs ys).map fun t => (t.1, t.2.1) := by
    apply List.ext_getElem <;> simp [rows2]
  rw [e5]
  exact hs.map _

/-- **C89**, two slices, how often a pair can be handed out: once, and in release builds once more for
every `finalize` and every `usize::MAX + 1 - len` by which the calls of `advance` exceed the end. -/
theorem C89_two_at_most [BEq α] [LawfulBEq α] [BEq β] [LawfulBEq β] (c : Cfg) (xs : List α) (ys : List β)
    (dx : Vector α w) (dy : Vector β w)
    (q : Nat) (h : xs.length = ys.length) (hw : 0 < w)
    (hlen : xs.length + w < c.usize) (ops : List ZipOp)
    (os : List (ZipOut (Vector α w × Vector β w × Unit)))
    (z : Zip (SIMDIter (Slice α w) α w) (SIMDIter (Slice β w) β w × Unit))
    (hrun : runZip c (zip2At xs ys dx dy 0 q) ops = ok (os, z)) (x : α × β) :
    (os.flatMap ZipOut.delivered).count x ≤
      (1 + ops.count .finalize + zadvanced ops / (c.usize - xs.length)) * (xs.zip ys).count x := by
  obtain ⟨e0, e1, e2, e3, e4⟩ := zip2_rows xs ys dx dy h
  obtain ⟨-, -, h3⟩ := rows2_spec c xs ys dx dy q h hw hlen
  obtain ⟨ros, runs, rfl, hne, h4, h5, h6⟩ := C89_runs (c := c) (rows := rows2 xs ys)
    (dv := Vector.zipWith (fun a b => (a, b, ())) dx dy) h3 hw (by omega) ops 0 os z (by omega)
    (by simpa only [zipAt, e1, e3] using hrun)
  rw [splitOuts_delivered ros hne, h4]
  have e5 : xs.zip ys = (rows2 xs ys).map fun t => (t.1, t.2.1) := by
    apply List.ext_getElem <;> simp [rows2]
  rw [e5, List.map_flatten]
  refine Nat.le_trans (count_flatten_le x ((rows2 xs ys).map fun t => (t.1, t.2.1)) _ ?_)
    (Nat.mul_le_mul_right _ ?_)
  · intro t ht
    obtain ⟨u, hu, rfl⟩ := List.mem_map.mp ht
    exact (h5 u hu).map _
  · rw [List.length_map, ← e0]
    simpa using h6

/-- **C140** in debug builds, `stride_two`: the pairs handed out by any sequence of calls, with any
amounts, are pairs of consecutive elements of the slice, in order, each at most once. -/
theorem C140_two_in_order_debug (c : Cfg) (l : List α) (dx dy : Vector α w) (hw : 0 < w)
    (hd : c.debug = true) (hu : l.length + 2 * (w + 1) < c.usize) (ops : List ZipOp) :
    runZip c (zipTwoAt l dx dy 0) ops = panic ∨
    ∃ os z, runZip c (zipTwoAt l dx dy 0) ops = ok (os, z) ∧
      (os.flatMap ZipOut.delivered).Sublist (consecutivePairs l) := by
  obtain ⟨e0, e1, e3, hr⟩ := zipTwo_rows c l dx dy hw hu
  have h := C140_in_order_debug (c := c) hd (show 0 < 2 by omega) e1 hr hw hu ops 0 (by omega)
  rw [e3] at h
  rcases h with h | ⟨ros, q, h, hne, -, hs⟩
  · exact .inl h
  · refine .inr ⟨_, _, h, ?_⟩
    rw [show (splitOut (PackedStride (Slice α w) α w × Unit) : IterOut (α × α × Unit) w → _) =
      splitOut (SIMDIter (Slice α w) α w × Unit) from funext splitOut_two, splitOuts_delivered ros hne,
      consecutivePairs_eq]
    have e5 : ∀ xs ys : List α, xs.zip ys = (rows2 xs ys).map fun t => (t.1, t.2.1) := by
      intro xs ys
      apply List.ext_getElem <;> simp [rows2]
    rw [e5]
    exact (hs.trans ((List.drop_sublist _ _).trans (List.take_sublist _ _))).map _

end

set_option synthInstance.maxSize 2000 in
/-- In a debug build, `finalize` skips rows or panics; it does not move back. -/
example : (do
      let (os, _) ← runZip debug64 (zip2At [1#8, 2, 3, 4, 5, 6] [7#8, 8, 9, 10, 11, 12] #v[0, 0] #v[0, 0] 0 0)
        [.next, .finalize, .next]
      ok (os.flatMap ZipOut.delivered)) = ok [(1, 7), (2, 8), (4, 10), (5, 11)] ∧
    (do
      let (os, _) ← runZip debug64 (zip2At [1#8, 2, 3, 4] [5#8, 6, 7, 8] #v[0, 0] #v[0, 0] 0 0)
        [.next, .next, .finalize]
      ok (os.flatMap ZipOut.delivered)) = panic := by
  decide +kernel

set_option synthInstance.maxSize 2000 in
/-- The bound is reached: the last pair of `C89_false` is handed out twice, with one `finalize`. -/
example : ∃ os z, runZip release64 (zip2At [1#8, 2, 3, 4] [5#8, 6, 7, 8] #v[0, 0] #v[0, 0] 0 0)
      [.next, .next, .finalize, .next] = ok (os, z) ∧ (os.flatMap ZipOut.delivered).count (4, 8) = 2 :=
  ⟨_, _, rfl, by decide +kernel⟩

example := C89_two_at_most release64 [1#8, 2, 3, 4] [5#8, 6, 7, 8] #v[0, 0] #v[0, 0] 0 rfl (by decide)
  (by decide) [.next, .next, .finalize, .next] _ _ rfl (4, 8)

example := C89_two_in_order_debug debug64 [1#8, 2, 3, 4, 5, 6] [7#8, 8, 9, 10, 11, 12] #v[0, 0] #v[0, 0]
  0 rfl rfl (by decide) (by decide) [.next, .finalize, .next] _ _ rfl

example := C140_two_in_order_debug debug64 [1#8, 2, 3, 4, 5] #v[0, 0] #v[0, 0] (by decide) rfl (by decide)
  [.next, .advance (2 ^ 63 - 1), .next]

end Faster
