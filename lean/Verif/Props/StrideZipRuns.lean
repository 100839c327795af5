import Verif.Props.StrideZipExact
/-
C98: the order in which a `stride_zip` of a slice iterator hands out pairs, whatever amounts are passed
to `advance`. In debug builds every sequence of calls keeps the order; in release builds every position
which wraps around starts one more run.
-/
namespace Faster
open Res SIMDSized SIMDIterable SIMDIterator

section
variable {α : Type} [Packable α] {w : Nat}

theorem pairs_advance_exact (c : Cfg) (l : List α) (d : Vector α w) (b : Nat)
    (pk : Option (Vector α w)) (p k : Nat) (hp : p < c.usize)
    (z : StrideZip (SIMDIter (Slice α w) α w) α w)
    (h : SIMDZippedIterator.advance c (pairsAt l d b pk p) k = ok z) :
    ∃ q, z = pairsAt l d b pk q ∧ q < c.usize ∧
      (q = p + 2 * k ∨ c.debug = false ∧ c.usize ≤ p + 2 * k ∧ q = (p + 2 * k) % c.usize) := by
  have hu : 0 < c.usize := by omega
  simp only [SIMDZippedIterator.advance, umul] at h
  cases hd : c.debug with
  | true =>
    by_cases h1 : 2 * k < c.usize
    · rw [if_pos h1] at h
      simp only [ok_bind, advance_exact] at h
      by_cases h2 : p + 2 * k < c.usize
      · rw [if_pos h2] at h
        simp only [ok_bind, ok.injEq] at h
        exact ⟨_, h.symm, h2, .inl rfl⟩
      · rw [if_neg h2, if_pos hd] at h
        cases h
    · rw [if_neg h1, if_pos hd] at h
      cases h
  | false =>
    have key : ∀ m, m % c.usize = 2 * k % c.usize →
        (do let it ← advance c (iterAt l d p) m; ok (⟨b, pk, it⟩ : StrideZip _ α w)) = ok z → m < c.usize →
        ∃ q, z = pairsAt l d b pk q ∧ q < c.usize ∧ q = (p + 2 * k) % c.usize := by
      intro m hm h hm2
      rw [advance_exact] at h
      by_cases h2 : p + m < c.usize
      · rw [if_pos h2] at h
        simp only [ok_bind, ok.injEq] at h
        refine ⟨_, h.symm, h2, ?_⟩
        rw [Nat.add_mod, ← hm, ← Nat.add_mod, Nat.mod_eq_of_lt h2]
      · rw [if_neg h2, hd] at h
        simp only [Bool.false_eq_true, if_false, ok_bind, ok.injEq] at h
        refine ⟨_, h.symm, Nat.mod_lt _ hu, ?_⟩
        rw [Nat.add_mod p m, hm, ← Nat.add_mod]
    have fin : ∀ q, z = pairsAt l d b pk q → q < c.usize → q = (p + 2 * k) % c.usize →
        ∃ q, z = pairsAt l d b pk q ∧ q < c.usize ∧
          (q = p + 2 * k ∨ false = false ∧ c.usize ≤ p + 2 * k ∧ q = (p + 2 * k) % c.usize) := by
      intro q h1 h2 h3
      refine ⟨q, h1, h2, ?_⟩
      by_cases h4 : p + 2 * k < c.usize
      · exact .inl (by rw [h3, Nat.mod_eq_of_lt h4])
      · exact .inr ⟨rfl, by omega, h3⟩
    by_cases h1 : 2 * k < c.usize
    · rw [if_pos h1] at h
      simp only [ok_bind] at h
      obtain ⟨q, e1, e2, e3⟩ := key (2 * k) rfl h h1
      exact fin q e1 e2 e3
    · rw [if_neg h1, hd] at h
      simp only [Bool.false_eq_true, if_false, ok_bind] at h
      obtain ⟨q, e1, e2, e3⟩ := key (2 * k % c.usize) (Nat.mod_mod _ _) h (Nat.mod_lt _ hu)
      exact fin q e1 e2 e3

/-- How one call moves a `stride_zip`, and the pairs which `next` hands out. -/
theorem pairs_step_moves (c : Cfg) (l : List α) (d : Vector α w) (b : Nat)
    (k : Option (Vector α w)) (p : Nat) (op : ZipOp) (hw : 0 < w)
    (hlen : l.length + 2 * w < c.usize) (hp : p < c.usize)
    (hf : c.debug = true ∨ op ≠ .finalize)
    (o : ZipOut (Vector α w × Vector α w)) (z : StrideZip (SIMDIter (Slice α w) α w) α w)
    (h : op.step c (pairsAt l d b k p) = ok (o, z)) :
    ∃ k' q, z = pairsAt l d b k' q ∧ q < c.usize ∧
      ((nextPairs [o] = [] ∧ p ≤ q ∧ max q l.length ≤ max p l.length + 2 * zadvanced [op]) ∨
        (nextPairs [o] = pairsFrom l w [p] ∧ p + 2 * w ≤ l.length ∧ q = p + 2 * w) ∨
        (nextPairs [o] = [] ∧ c.debug = false ∧ q + c.usize ≤ p + 2 * zadvanced [op]) ∨
        (nextPairs [o] = [] ∧ c.debug = true ∧ p ≤ q)) := by
  have hr := represents_slice (w := w) c l
  cases op with
  | next =>
    simp only [ZipOp.step, SIMDZippedIterator.next, StrideZip.next] at h
    rw [next_exact c l d p (by omega) hp] at h
    by_cases h1 : p + w ≤ l.length
    · rw [dif_pos h1] at h
      simp only [ok_bind] at h
      rw [next_exact c l d (p + w) (by omega) (by omega)] at h
      by_cases h2 : p + w + w ≤ l.length
      · rw [dif_pos h2] at h
        simp only [ok_bind, ok.injEq, Prod.mk.injEq, destrideTwo_at (show p + 2 * w ≤ l.length by omega)] at h
        obtain ⟨rfl, rfl⟩ := h
        refine ⟨_, _, rfl, by omega, .inr (.inl ⟨?_, by omega, by omega⟩)⟩
        simp only [nextPairs, List.filterMap_cons, List.filterMap_nil, pairsFrom, List.map_cons, List.map_nil]
        congr 1
        apply List.ext_getElem
        · simp
        · intro i h8 h9
          simp only [List.length_ofFn] at h8
          simp only [List.getElem_ofFn, List.getElem_map, List.getElem_range, Fin.getElem_fin,
            Vector.getElem_ofFn]
          rw [List.getElem?_eq_getElem (by omega), List.getElem?_eq_getElem (by omega)]
      · rw [dif_neg h2, if_pos (by omega)] at h
        simp only [ok_bind, ok.injEq, Prod.mk.injEq] at h
        obtain ⟨rfl, rfl⟩ := h
        exact ⟨_, _, rfl, by omega, .inl ⟨rfl, by omega, by omega⟩⟩
    · rw [dif_neg h1] at h
      have h2 : (ZipOut.vec none, pairsAt l d b k p) = (o, z) := by
        split at h
        · simpa only [ok_bind, ok.injEq] using h
        · split at h
          · cases h
          · simpa only [ok_bind, ok.injEq] using h
      simp only [Prod.mk.injEq] at h2
      obtain ⟨rfl, rfl⟩ := h2
      exact ⟨_, _, rfl, hp, .inl ⟨rfl, by omega, by omega⟩⟩
  | end_ =>
    simp only [ZipOp.step, SIMDZippedIterator.end_, StrideZip.end_] at h
    -- the inner `end` does not move back, and at most to the end
    have inner : ∀ q t it, end_ c (iterAt l d q) = ok (t, it) → q < c.usize →
        ∃ q', it = iterAt l d q' ∧ q ≤ q' ∧ q' ≤ max q l.length := by
      intro q t it h hq
      rw [simdIter_end_exact hr q d (by omega)] at h
      split at h
      · simp only [ok.injEq, Prod.mk.injEq] at h
        exact ⟨q, h.2.symm, by omega, by omega⟩
      · split at h
        · cases h
        · split at h
          · unfold badAccess at h
            split at h <;> cases h
          · simp only [ok.injEq, Prod.mk.injEq] at h
            exact ⟨l.length, h.2.symm, by omega, by omega⟩
    -- so does `next`
    have hn : ∀ r it, next c (iterAt l d p) = ok (r, it) →
        ∃ q, it = iterAt l d q ∧ p ≤ q ∧ q ≤ max p l.length ∧ q < c.usize := by
      intro r it h
      rw [next_exact c l d p (by omega) hp] at h
      split at h
      · simp only [ok.injEq, Prod.mk.injEq] at h
        exact ⟨p + w, h.2.symm, by omega, by omega, by omega⟩
      · split at h
        · simp only [ok.injEq, Prod.mk.injEq] at h
          exact ⟨p, h.2.symm, by omega, by omega, hp⟩
        · split at h
          · cases h
          · simp only [ok.injEq, Prod.mk.injEq] at h
            exact ⟨p, h.2.symm, by omega, by omega, hp⟩
    cases h1 : next c (iterAt l d p) with
    | ok r =>
      obtain ⟨r, it⟩ := r
      obtain ⟨q, rfl, e1, e2, e3⟩ := hn r it h1
      simp only [h1, ok_bind] at h
      cases h2 : end_ c (iterAt l d q) with
      | ok t =>
        obtain ⟨t, it⟩ := t
        obtain ⟨q', rfl, e4, e5⟩ := inner q t it h2 e3
        simp only [h2, ok_bind] at h
        have fin : ∀ k', z = pairsAt l d b k' q' → nextPairs [o] = [] →
            ∃ k' q, z = pairsAt l d b k' q ∧ q < c.usize ∧
              ((nextPairs [o] = [] ∧ p ≤ q ∧
                  max q l.length ≤ max p l.length + 2 * zadvanced [ZipOp.end_]) ∨
                (nextPairs [o] = pairsFrom l w [p] ∧ p + 2 * w ≤ l.length ∧ q = p + 2 * w) ∨
                (nextPairs [o] = [] ∧ c.debug = false ∧
                  q + c.usize ≤ p + 2 * zadvanced [ZipOp.end_]) ∨
                (nextPairs [o] = [] ∧ c.debug = true ∧ p ≤ q)) :=
          fun k' hz ho => ⟨k', q', hz, by omega, .inl ⟨ho, by omega, by omega⟩⟩
        cases r with
        | some v =>
          simp only at h
          rcases uadd_outcome c w (t.getD (SIMDIterable.dflt (iterAt l d q'), 0)).2 with h3 | ⟨m, h3⟩
          · simp only [h3, panic_bind, reduceCtorEq] at h
          · simp only [h3, ok_bind, ok.injEq, Prod.mk.injEq] at h
            exact fin _ h.2.symm (by rw [← h.1]; rfl)
        | none =>
          cases k with
          | some v =>
            simp only at h
            rcases uadd_outcome c w (t.getD (SIMDIterable.dflt (iterAt l d q'), 0)).2 with h3 | ⟨m, h3⟩
            · simp only [h3, panic_bind, reduceCtorEq] at h
            · simp only [h3, ok_bind, ok.injEq, Prod.mk.injEq] at h
              exact fin _ h.2.symm (by rw [← h.1]; rfl)
          | none =>
            simp only at h
            split at h
            · simp only [ok_bind, ok.injEq, Prod.mk.injEq] at h
              exact fin _ h.2.symm (by rw [← h.1]; rfl)
            · simp only [ok_bind, ok.injEq, Prod.mk.injEq] at h
              exact fin _ h.2.symm (by rw [← h.1]; rfl)
      | panic => simp only [h2, panic_bind, reduceCtorEq] at h
      | ub => simp only [h2, ub_bind, reduceCtorEq] at h
      | hang => rw [h2] at h; cases h
    | panic => simp only [h1, panic_bind, reduceCtorEq] at h
    | ub => simp only [h1, ub_bind, reduceCtorEq] at h
    | hang => rw [h1] at h; cases h
  | advance n =>
    simp only [ZipOp.step] at h
    cases h1 : SIMDZippedIterator.advance c (pairsAt l d b k p) n with
    | ok z' =>
      simp only [h1, ok_bind, ok.injEq, Prod.mk.injEq] at h
      obtain ⟨rfl, rfl⟩ := h
      obtain ⟨q, e1, e2, e3⟩ := pairs_advance_exact c l d b k p n hp z' h1
      refine ⟨k, q, e1, e2, ?_⟩
      simp only [zadvanced, Nat.add_zero]
      rcases e3 with rfl | ⟨e3, e4, e5⟩
      · exact .inl ⟨rfl, by omega, by omega⟩
      · refine .inr (.inr (.inl ⟨rfl, e3, ?_⟩))
        have : (p + 2 * n) % c.usize ≤ p + 2 * n - c.usize := by
          rw [Nat.mod_eq_sub_mod e4]
          exact Nat.mod_le _ _
        omega
    | panic => simp only [h1, panic_bind, reduceCtorEq] at h
    | ub => simp only [h1, ub_bind, reduceCtorEq] at h
    | hang => rw [h1] at h; cases h
  | finalize =>
    have hd : c.debug = true := hf.resolve_right (by simp)
    simp only [ZipOp.step, zfinalize] at h
    cases h0 : SIMDZippedIterator.scalarPos c (pairsAt l d b k p) with
    | ok m =>
      simp only [h0, SIMDZippedIterator.scalarLen, SIMDSized.scalarLen, ok_bind] at h
      rcases usub_outcome c (l.length / 2) m with h2 | ⟨n, h2⟩
      · simp only [h2, panic_bind, reduceCtorEq] at h
      · simp only [h2, ok_bind] at h
        cases h1 : SIMDZippedIterator.advance c (pairsAt l d b k p) n with
        | ok z' =>
          simp only [h1, ok_bind, ok.injEq, Prod.mk.injEq] at h
          obtain ⟨rfl, rfl⟩ := h
          obtain ⟨q, e1, e2, e3⟩ := pairs_advance_exact c l d b k p n hp z' h1
          refine ⟨k, q, e1, e2, .inr (.inr (.inr ⟨rfl, hd, ?_⟩))⟩
          rcases e3 with rfl | ⟨e3, -⟩
          · omega
          · rw [hd] at e3; cases e3
        | panic => simp only [h1, panic_bind, reduceCtorEq] at h
        | ub => simp only [h1, ub_bind, reduceCtorEq] at h
        | hang => rw [h1] at h; cases h
    | panic => simp only [h0, SIMDZippedIterator.scalarLen, SIMDSized.scalarLen, ok_bind, panic_bind, reduceCtorEq] at h
    | ub => simp only [h0, SIMDZippedIterator.scalarLen, SIMDSized.scalarLen, ok_bind, ub_bind, reduceCtorEq] at h
    | hang => simp only [h0, SIMDZippedIterator.scalarLen, SIMDSized.scalarLen, ok_bind] at h; cases h
  | len =>
    simp only [ZipOp.step] at h
    cases h1 : SIMDZippedIterator.len c (pairsAt l d b k p) <;> rw [h1] at h <;> try (cases h; done)
    simp only [ok_bind, ok.injEq, Prod.mk.injEq] at h
    obtain ⟨rfl, rfl⟩ := h
    exact ⟨k, p, rfl, hp, .inl ⟨rfl, by omega, by omega⟩⟩
  | scalarPos =>
    simp only [ZipOp.step] at h
    cases h1 : SIMDZippedIterator.scalarPos c (pairsAt l d b k p) <;> rw [h1] at h <;> try (cases h; done)
    simp only [ok_bind, ok.injEq, Prod.mk.injEq] at h
    obtain ⟨rfl, rfl⟩ := h
    exact ⟨k, p, rfl, hp, .inl ⟨rfl, by omega, by omega⟩⟩
  | scalarLen =>
    simp only [ZipOp.step] at h
    cases h1 : SIMDZippedIterator.scalarLen c (pairsAt l d b k p) <;> rw [h1] at h <;> try (cases h; done)
    simp only [ok_bind, ok.injEq, Prod.mk.injEq] at h
    obtain ⟨rfl, rfl⟩ := h
    exact ⟨k, p, rfl, hp, .inl ⟨rfl, by omega, by omega⟩⟩
  | vectorPos =>
    simp only [ZipOp.step] at h
    cases h1 : SIMDZippedIterator.vectorPos c (pairsAt l d b k p) <;> rw [h1] at h <;> try (cases h; done)
    simp only [ok_bind, ok.injEq, Prod.mk.injEq] at h
    obtain ⟨rfl, rfl⟩ := h
    exact ⟨k, p, rfl, hp, .inl ⟨rfl, by omega, by omega⟩⟩
  | vectorLen =>
    simp only [ZipOp.step] at h
    cases h1 : SIMDZippedIterator.vectorLen c (pairsAt l d b k p) <;> rw [h1] at h <;> try (cases h; done)
    simp only [ok_bind, ok.injEq, Prod.mk.injEq] at h
    obtain ⟨rfl, rfl⟩ := h
    exact ⟨k, p, rfl, hp, .inl ⟨rfl, by omega, by omega⟩⟩

/-- The positions of the vectors of pairs which a sequence of calls hands out: one run which begins
at the present position, and one more for every position which wraps around. -/
theorem pairs_order_runs (c : Cfg) (l : List α) (d : Vector α w) (b : Nat) (hw : 0 < w)
    (hlen : l.length + 2 * w < c.usize) :
    ∀ (ops : List ZipOp) (k : Option (Vector α w)) (p : Nat)
      (os : List (ZipOut (Vector α w × Vector α w))) (z : StrideZip (SIMDIter (Slice α w) α w) α w),
    p < c.usize → (c.debug = true ∨ .finalize ∉ ops) →
    runZip c (pairsAt l d b k p) ops = ok (os, z) →
    ∃ (ps : List Nat) (runs : List (List Nat)),
      nextPairs os = pairsFrom l w (ps ++ runs.flatten) ∧
      (∀ q ∈ ps, p ≤ q ∧ q + 2 * w ≤ l.length) ∧ ps.Pairwise (fun p q => p + 2 * w ≤ q) ∧
      (∀ r ∈ runs, (∀ q ∈ r, q + 2 * w ≤ l.length) ∧ r.Pairwise (fun p q => p + 2 * w ≤ q)) ∧
      (c.debug = true → runs = []) ∧
      (c.debug = false →
        runs.length * (c.usize - l.length) ≤ max p l.length - l.length + 2 * zadvanced ops) := by
  intro ops
  induction ops with
  | nil =>
    intro k p os z _ _ h
    simp only [runZip, ok.injEq, Prod.mk.injEq] at h
    rw [← h.1]
    exact ⟨[], [], rfl, by simp, List.Pairwise.nil, by simp, by simp, by simp⟩
  | cons op ops ih =>
    intro k p os z hp hf h
    simp only [runZip] at h
    have hf1 : c.debug = true ∨ op ≠ .finalize := hf.imp_right fun h e => h (by simp [e])
    have hf2 : c.debug = true ∨ .finalize ∉ ops := hf.imp_right fun h e => h (by simp [e])
    cases h1 : op.step c (pairsAt l d b k p) with
    | ok r =>
      obtain ⟨o, z1⟩ := r
      simp only [h1, ok_bind] at h
      obtain ⟨k', q, rfl, hq, hm⟩ := pairs_step_moves c l d b k p op hw hlen hp hf1 o z1 h1
      cases h2 : runZip c (pairsAt l d b k' q) ops with
      | ok t =>
        obtain ⟨os1, z2⟩ := t
        simp only [h2, ok_bind, ok.injEq, Prod.mk.injEq] at h
        obtain ⟨ps, runs, e1, e2, e3, e4, e5, e6⟩ := ih k' q os1 z2 hq hf2 h2
        rw [← h.1]
        have hcons : nextPairs (o :: os1) = nextPairs [o] ++ nextPairs os1 := by
          simp only [nextPairs, ← List.filterMap_append]; rfl
        have hz : zadvanced (op :: ops) = zadvanced [op] + zadvanced ops := by
          cases op <;> simp [zadvanced]
        rw [hcons, hz]
        rcases hm with ⟨ho, m1, m2⟩ | ⟨ho, m1, rfl⟩ | ⟨ho, m1, m2⟩ | ⟨ho, m1, m2⟩
        · refine ⟨ps, runs, by rw [ho, e1, List.nil_append], fun q' hq' => ?_, e3, e4, e5, fun hd => ?_⟩
          · have := e2 q' hq'; omega
          · have := e6 hd; omega
        · refine ⟨p :: ps, runs, ?_, ?_, List.Pairwise.cons (fun q hq => (e2 q hq).1) e3, e4, e5,
            fun hd => ?_⟩
          · rw [ho, e1]; rfl
          · intro q' hq'
            rcases List.mem_cons.1 hq' with rfl | hq'
            · exact ⟨Nat.le_refl _, m1⟩
            · have := e2 q' hq'; omega
          · have := e6 hd; omega
        · refine ⟨[], ps :: runs, by rw [ho, e1]; rfl, by simp, List.Pairwise.nil, ?_, ?_, fun hd => ?_⟩
          · intro r hr
            rcases List.mem_cons.1 hr with rfl | hr
            · exact ⟨fun q hq => (e2 q hq).2, e3⟩
            · exact e4 r hr
          · rw [m1]; simp
          · have := e6 hd
            rw [List.length_cons, Nat.succ_mul]
            omega
        · refine ⟨ps, runs, by rw [ho, e1, List.nil_append], fun q' hq' => ?_, e3, e4, e5, fun hd => ?_⟩
          · have := e2 q' hq'; omega
          · rw [m1] at hd; cases hd
      | panic => simp only [h2, panic_bind, reduceCtorEq] at h
      | ub => simp only [h2, ub_bind, reduceCtorEq] at h
      | hang => rw [h2] at h; cases h
    | panic => simp only [h1, panic_bind, reduceCtorEq] at h
    | ub => simp only [h1, ub_bind, reduceCtorEq] at h
    | hang => rw [h1] at h; cases h

/-- **C98** in debug builds, without restriction: whatever calls are made, with whatever amounts, the
vectors of pairs which `next` returns are disjoint and in the order of the slice. -/
theorem C98_order_debug (c : Cfg) (l : List α) (d : Vector α w) (b : Nat) (hw : 0 < w)
    (hlen : l.length + 2 * w < c.usize) (hd : c.debug = true) (ops : List ZipOp)
    (k : Option (Vector α w)) (p : Nat) (hp : p < c.usize)
    (os : List (ZipOut (Vector α w × Vector α w))) (z : StrideZip (SIMDIter (Slice α w) α w) α w)
    (h : runZip c (pairsAt l d b k p) ops = ok (os, z)) :
    ∃ ps : List Nat, nextPairs os = pairsFrom l w ps ∧ (∀ q ∈ ps, p ≤ q ∧ q + 2 * w ≤ l.length) ∧
      ps.Pairwise (fun p q => p + 2 * w ≤ q) := by
  obtain ⟨ps, runs, e1, e2, e3, -, e5, -⟩ := pairs_order_runs c l d b hw hlen ops k p os z hp (.inl hd) h
  rw [e5 hd, List.flatten_nil, List.append_nil] at e1
  exact ⟨ps, e1, e2, e3⟩

/-- **C98** in release builds, for calls other than `finalize` with any amounts: the vectors of pairs
come in runs which are disjoint and in order, one more for every `usize::MAX + 1 - len` by which the
calls of `advance` exceed the end. -/
theorem C98_runs (c : Cfg) (l : List α) (d : Vector α w) (b : Nat) (hw : 0 < w)
    (hlen : l.length + 2 * w < c.usize) (ops : List ZipOp) (hf : .finalize ∉ ops)
    (k : Option (Vector α w)) (p : Nat) (hp : p < c.usize)
    (os : List (ZipOut (Vector α w × Vector α w))) (z : StrideZip (SIMDIter (Slice α w) α w) α w)
    (h : runZip c (pairsAt l d b k p) ops = ok (os, z)) :
    ∃ runs : List (List Nat), nextPairs os = pairsFrom l w runs.flatten ∧
      (∀ r ∈ runs, (∀ q ∈ r, q + 2 * w ≤ l.length) ∧ r.Pairwise (fun p q => p + 2 * w ≤ q)) ∧
      runs.length ≤ 1 + (max p l.length - l.length + 2 * zadvanced ops) / (c.usize - l.length) := by
  obtain ⟨ps, runs, e1, e2, e3, e4, e5, e6⟩ := pairs_order_runs c l d b hw hlen ops k p os z hp (.inr hf) h
  refine ⟨ps :: runs, e1, ?_, ?_⟩
  · intro r hr
    rcases List.mem_cons.1 hr with rfl | hr
    · exact ⟨fun q hq => (e2 q hq).2, e3⟩
    · exact e4 r hr
  · rw [List.length_cons, Nat.add_comm]
    apply Nat.add_le_add_left
    cases hd : c.debug with
    | true => rw [e5 hd]; exact Nat.zero_le _
    | false => exact (Nat.le_div_iff_mul_le (by omega)).2 (e6 hd)

/-- In a release build an `advance` by half of `usize` goes round and the pairs come again. -/
example : (do
    let (os, _) ← runZip release64 (pairsAt [1#8, 2, 3, 4] #v[0#8, 0] 0 none 0)
      [.next, .advance (2 ^ 63 - 2), .next]
    ok os) = ok [.vec (some (#v[1, 3], #v[2, 4])), .unit, .vec (some (#v[1, 3], #v[2, 4]))] := by
  decide +kernel

deriving instance DecidableEq for StrideZip

/-- `C98_order_debug` applied to calls with a `finalize` in between. -/
example : ∃ ps : List Nat,
    nextPairs [.vec (some (#v[1#8, 3], #v[2, 4])), .unit, .vec none] = pairsFrom [1#8, 2, 3, 4, 5, 6] 2 ps ∧
    (∀ q ∈ ps, 0 ≤ q ∧ q + 2 * 2 ≤ 6) ∧ ps.Pairwise (fun p q => p + 2 * 2 ≤ q) :=
  C98_order_debug debug64 [1#8, 2, 3, 4, 5, 6] #v[0, 0] 0 (by decide) (by decide) rfl
    [.next, .finalize, .next] none 0 (by decide) _ (pairsAt [1#8, 2, 3, 4, 5, 6] #v[0, 0] 0 none 6)
    (by decide +kernel)

/-- `C98_runs` applied to the calls above. -/
example : ∃ runs : List (List Nat),
    nextPairs [.vec (some (#v[1#8, 3], #v[2, 4])), .unit, .vec (some (#v[1, 3], #v[2, 4]))] =
      pairsFrom [1#8, 2, 3, 4] 2 runs.flatten ∧
    (∀ r ∈ runs, (∀ q ∈ r, q + 2 * 2 ≤ 4) ∧ r.Pairwise (fun p q => p + 2 * 2 ≤ q)) ∧
    runs.length ≤ 2 :=
  C98_runs release64 [1#8, 2, 3, 4] #v[0, 0] 0 (by decide) (by decide)
    [.next, .advance (2 ^ 63 - 2), .next] (by decide) none 0 (by decide) _
    (pairsAt [1#8, 2, 3, 4] #v[0, 0] 0 none 4) (by decide +kernel)

end
end Faster
