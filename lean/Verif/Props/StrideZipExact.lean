import Verif.Props.StrideZipTrace
/-
C98: what a `stride_zip` of a slice iterator answers, exactly, for every sequence of calls of
its safe methods, from every position and with every vector kept back.
-/
namespace Faster
open Res SIMDSized SIMDIterable SIMDIterator

section
variable {α : Type} [Packable α] {w : Nat}

/-- What a `stride_zip` does, as a machine on the vector kept back and the position of the
inner iterator. `b` is the position at which it was made. -/
def pairMachine (c : Cfg) (l : List α) (d : Vector α w) (b : Nat) :
    ZipOp → Option (Vector α w) × Nat →
    Res (ZipOut (Vector α w × Vector α w) × (Option (Vector α w) × Nat))
  | .next, (k, p) =>
    if h2 : p + 2 * w ≤ l.length then
      ok (.vec (some (Vector.ofFn fun i => l[p + 2 * i.val], Vector.ofFn fun i => l[p + 2 * i.val + 1])),
        (k, p + 2 * w))
    else if h1 : p + w ≤ l.length then ok (.vec none, (some (windowAt l p w h1), p + w))
    else ok (.vec none, (k, p))
  | .end_, (k, p) =>
    if l.length ≤ p then
      ok (.tail (k.map fun v => (Packed.destrideTwo v d, w / 2)), (none, p))
    else if p + 2 * w < l.length then panic
    else if h1 : p + w ≤ l.length then
      ok (.tail (some (Packed.destrideTwo (windowAt l p w h1) (padFront d (l.drop (p + w))),
        if p + w = l.length then w / 2 else (w + (p + 2 * w - l.length)) / 2)), (k, l.length))
    else if 0 < p ∧ l.length ≤ w then badAccess c
    else
      ok (.tail (some (match k with
        | some v => (Packed.destrideTwo v (padFront d (l.drop p)), (w + (p + w - l.length)) / 2)
        | none => (Packed.destrideTwo (padFront d (l.drop p)) d, (p + w - l.length) / 2))),
        (none, l.length))
  | .advance n, (k, p) => ok (.unit, (k, p + 2 * n))
  | .finalize, (k, p) =>
    if c.debug ∧ l.length / 2 < (p - b) / 2 then panic
    else ok (.unit, (k, b + 2 * (l.length / 2) + (p - b) % 2))
  | .len, s => ok (.num (l.length / w / 2), s)
  | .scalarPos, (k, p) => ok (.num ((p - b) / 2), (k, p))
  | .scalarLen, s => ok (.num (l.length / 2), s)
  | .vectorPos, (k, p) => ok (.num ((p / w - b / w) / 2), (k, p))
  | .vectorLen, s => ok (.num (l.length / 2 / w), s)

/-- The machine run on a sequence of calls. -/
def runPairs (c : Cfg) (l : List α) (d : Vector α w) (b : Nat) :
    List ZipOp → Option (Vector α w) × Nat →
    Res (List (ZipOut (Vector α w × Vector α w)) × (Option (Vector α w) × Nat))
  | [], s => ok ([], s)
  | op :: ops, s => do
    let (o, s) ← pairMachine c l d b op s
    let (os, s) ← runPairs c l d b ops s
    ok (o :: os, s)

omit [Packable α] in
/-- The pairs of two neighbouring windows, at any position. -/
theorem destrideTwo_at {l : List α} {p : Nat} (h : p + 2 * w ≤ l.length) :
    Packed.destrideTwo (windowAt l p w (by omega)) (windowAt l (p + w) w (by omega)) =
      (Vector.ofFn fun i => l[p + 2 * i.val], Vector.ofFn fun i => l[p + 2 * i.val + 1]) := by
  have key : ∀ i (hi : i < w + w),
      (windowAt l p w (by omega) ++ windowAt l (p + w) w (by omega))[i] = l[p + i] := by
    intro i hi
    rw [Vector.getElem_append]
    split
    · simp [windowAt]
    · simp only [windowAt, Vector.getElem_ofFn]
      congr 1; omega
  simp only [Packed.destrideTwo]
  congr 1
  · ext i hi
    simp only [Vector.getElem_ofFn, key]
  · ext i hi
    simp only [Vector.getElem_ofFn, key, Nat.add_assoc]

theorem pairs_advance_ok (c : Cfg) (l : List α) (d : Vector α w) (b : Nat)
    (pk : Option (Vector α w)) (p k : Nat) (hp : p + 2 * k < c.usize) :
    SIMDZippedIterator.advance c (pairsAt l d b pk p) k = ok (pairsAt l d b pk (p + 2 * k)) := by
  simp only [SIMDZippedIterator.advance]
  rw [umul_ok (by omega)]
  simp only [ok_bind]
  rw [advance_exact, if_pos hp]
  rfl

/-- **C98, exactly**, one call: `pairMachine`. -/
theorem pairs_step_exact (c : Cfg) (l : List α) (d : Vector α w) (b : Nat)
    (k : Option (Vector α w)) (p : Nat) (op : ZipOp) (hw : 0 < w)
    (hlen : l.length + 2 * w < c.usize) (hb : b ≤ p)
    (hp : max p (b + l.length + 1) + 2 * zadvanced [op] + 2 * w < c.usize) :
    op.step c (pairsAt l d b k p) =
      (pairMachine c l d b op (k, p) >>= fun r => ok (r.1, pairsAt l d b r.2.1 r.2.2)) := by
  have hr := represents_slice (w := w) c l
  have hpos : SIMDZippedIterator.scalarPos c (pairsAt l d b k p) = ok ((p - b) / 2) := by
    simp only [SIMDZippedIterator.scalarPos, SIMDIterable.scalarPos, ok_bind, usub_ok hb]
  have hsl : SIMDZippedIterator.scalarLen c (pairsAt l d b k p) = ok (l.length / 2) := rfl
  cases op with
  | next =>
    simp only [zadvanced] at hp
    simp only [ZipOp.step, SIMDZippedIterator.next, StrideZip.next, pairMachine]
    by_cases h1 : p + w ≤ l.length
    · have e1 := simdIter_next_some hr (d := d) h1 (by omega)
      by_cases h2 : p + 2 * w ≤ l.length
      · have e2 := simdIter_next_some hr (d := d) (p := p + w) (by omega) (by omega)
        rw [dif_pos h2]
        simp only [e1, e2, ok_bind, destrideTwo_at h2, Nat.two_mul, Nat.add_assoc]
      · have e2 := simdIter_next_none hr (d := d) (p := p + w) (by omega) (by omega)
        rw [dif_neg h2, dif_pos h1]
        simp only [e1, e2, ok_bind]
    · have e1 := simdIter_next_none hr (d := d) (p := p) (by omega) (by omega)
      rw [dif_neg (by omega), dif_neg h1]
      simp only [e1, ok_bind]
  | end_ =>
    simp only [zadvanced] at hp
    simp only [ZipOp.step, SIMDZippedIterator.end_, StrideZip.end_, pairMachine]
    by_cases h0 : l.length ≤ p
    · have e1 := simdIter_next_none hr (d := d) (p := p) (by omega) (by omega)
      have e2 := simdIter_end_exact hr p d (by omega)
      rw [if_pos h0] at e2
      rw [if_pos h0]
      simp only [e1, e2, ok_bind, Option.getD_none]
      cases k with
      | none => simp only [gt_iff_lt, Nat.lt_irrefl, if_false, ok_bind]; rfl
      | some v =>
        simp only [uadd_ok (show w + 0 < c.usize by omega), ok_bind, Nat.add_zero]
        rfl
    · rw [if_neg (by omega)]
      by_cases h1 : p + w ≤ l.length
      · have e1 := simdIter_next_some hr (d := d) h1 (by omega)
        have e2 := simdIter_end_exact hr (p + w) d (by omega)
        simp only [e1, ok_bind]
        by_cases h2 : p + 2 * w < l.length
        · rw [if_pos h2]
          rw [if_neg (by omega), if_pos (by omega)] at e2
          simp only [e2, panic_bind]
        · rw [if_neg h2, dif_pos h1]
          by_cases h3 : p + w = l.length
          · rw [if_pos (by omega)] at e2
            rw [if_pos h3]
            have e3 : padFront d (l.drop (p + w)) = d := by
              rw [h3]
              simp [padFront]
            simp only [e2, ok_bind, Option.getD_none, e3,
              uadd_ok (show w + 0 < c.usize by omega), Nat.add_zero]
            rw [show SIMDIterable.dflt (iterAt l d (p + w)) = d from rfl]
            simp only [h3]
          · rw [if_neg (by omega), if_neg (by omega), if_neg (by omega)] at e2
            rw [if_neg h3]
            simp only [e2, ok_bind, Option.getD_some]
            rw [uadd_ok (by omega)]
            simp only [ok_bind]
            rw [show w - (l.length - (p + w)) = p + 2 * w - l.length by omega]
      · have e1 := simdIter_next_none hr (d := d) (p := p) (by omega) (by omega)
        have e2 := simdIter_end_exact hr p d (by omega)
        rw [if_neg (by omega), dif_neg h1]
        rw [if_neg h0, if_neg (by omega)] at e2
        simp only [e1, ok_bind]
        by_cases h3 : 0 < p ∧ l.length ≤ w
        · rw [if_pos h3]
          rw [if_pos h3] at e2
          rw [e2]
          unfold badAccess
          split <;> rfl
        · rw [if_neg h3]
          rw [if_neg h3] at e2
          simp only [e2, ok_bind, Option.getD_some]
          rw [show w - (l.length - p) = p + w - l.length by omega]
          cases k with
          | none =>
            simp only [gt_iff_lt]
            rw [if_pos (by omega)]
            rfl
          | some v =>
            simp only [uadd_ok (show w + (p + w - l.length) < c.usize by omega), ok_bind]
  | advance n =>
    simp only [zadvanced, Nat.add_zero] at hp
    simp only [ZipOp.step, pairMachine]
    rw [pairs_advance_ok c l d b k p n (by omega)]
    rfl
  | finalize =>
    simp only [zadvanced] at hp
    simp only [ZipOp.step, pairMachine, zfinalize, hsl, hpos, ok_bind]
    by_cases h : (p - b) / 2 ≤ l.length / 2
    · rw [usub_ok h, if_neg (by omega)]
      simp only [ok_bind]
      rw [pairs_advance_ok c l d b k p _ (by omega)]
      simp only [ok_bind]
      rw [show p + 2 * (l.length / 2 - (p - b) / 2) = b + 2 * (l.length / 2) + (p - b) % 2 by omega]
    · unfold usub
      rw [if_neg h]
      cases hd : c.debug with
      | true => rw [if_pos rfl, if_pos ⟨rfl, by omega⟩]; rfl
      | false =>
        have hm : (c.usize + l.length / 2 - (p - b) / 2) % c.usize =
            c.usize + l.length / 2 - (p - b) / 2 := Nat.mod_eq_of_lt (by omega)
        simp only [Bool.false_eq_true, if_false, ok_bind, hm, false_and, umul,
          SIMDZippedIterator.advance]
        rw [if_neg (by omega), hd]
        simp only [Bool.false_eq_true, if_false, ok_bind]
        have hm2 : 2 * (c.usize + l.length / 2 - (p - b) / 2) % c.usize =
            c.usize - 2 * ((p - b) / 2 - l.length / 2) := by
          rw [show 2 * (c.usize + l.length / 2 - (p - b) / 2) =
            c.usize - 2 * ((p - b) / 2 - l.length / 2) + c.usize by omega,
            Nat.add_mod_right, Nat.mod_eq_of_lt (by omega)]
        rw [hm2, advance_exact, if_neg (by omega), hd]
        simp only [Bool.false_eq_true, if_false, ok_bind]
        rw [show p + (c.usize - 2 * ((p - b) / 2 - l.length / 2)) =
          b + 2 * (l.length / 2) + (p - b) % 2 + c.usize by omega,
          Nat.add_mod_right, Nat.mod_eq_of_lt (by omega)]
  | len =>
    simp only [ZipOp.step, pairMachine, SIMDZippedIterator.len, SIMDIterable.len,
      SIMDSized.scalarLen, ok_bind, udiv_ok hw]
  | scalarPos =>
    simp only [ZipOp.step, pairMachine, hpos, ok_bind]
  | scalarLen =>
    simp only [ZipOp.step, pairMachine, hsl, ok_bind]
  | vectorPos =>
    simp only [ZipOp.step, pairMachine, SIMDZippedIterator.vectorPos, ok_bind,
      SIMDIterable.vectorPos, udiv_ok hw, usub_ok (Nat.div_le_div_right hb)]
  | vectorLen =>
    simp only [ZipOp.step, pairMachine, SIMDZippedIterator.vectorLen, ok_bind, SIMDSized.scalarLen,
      udiv_ok hw]

omit [Packable α] in
/-- The machine never moves before the start, and only `advance` moves it past the end. -/
theorem pairMachine_moves (c : Cfg) (l : List α) (d : Vector α w) (b : Nat) (op : ZipOp)
    (s : Option (Vector α w) × Nat) (hb : b ≤ s.2) (o : ZipOut (Vector α w × Vector α w))
    (s' : Option (Vector α w) × Nat) (h : pairMachine c l d b op s = ok (o, s')) :
    b ≤ s'.2 ∧ max s'.2 (b + l.length + 1) ≤ max s.2 (b + l.length + 1) + 2 * zadvanced [op] := by
  obtain ⟨k, p⟩ := s
  simp only at hb
  cases op with
  | next =>
    simp only [pairMachine] at h
    split at h
    · simp only [ok.injEq, Prod.mk.injEq] at h
      rw [← h.2]; simp only [zadvanced]; omega
    · split at h <;>
      · simp only [ok.injEq, Prod.mk.injEq] at h
        rw [← h.2]; simp only [zadvanced]; omega
  | end_ =>
    simp only [pairMachine] at h
    split at h
    · simp only [ok.injEq, Prod.mk.injEq] at h
      rw [← h.2]; simp only [zadvanced]; omega
    · split at h
      · cases h
      · split at h
        · simp only [ok.injEq, Prod.mk.injEq] at h
          rw [← h.2]; simp only [zadvanced]
          omega
        · split at h
          · unfold badAccess at h
            split at h <;> cases h
          · simp only [ok.injEq, Prod.mk.injEq] at h
            rw [← h.2]; simp only [zadvanced]
            omega
  | advance n =>
    simp only [pairMachine, ok.injEq, Prod.mk.injEq] at h
    rw [← h.2]; simp only [zadvanced]; omega
  | finalize =>
    simp only [pairMachine] at h
    split at h
    · cases h
    · simp only [ok.injEq, Prod.mk.injEq] at h
      rw [← h.2]; simp only [zadvanced]; omega
  | _ =>
    simp only [pairMachine, ok.injEq, Prod.mk.injEq] at h
    rw [← h.2]; simp only [zadvanced]; omega

/-- **C98, exactly**: a `stride_zip` of a slice, made at any position, with any vector kept
back, answers every sequence of calls, `end` included, as `pairMachine` does, as long as
`advance` does not overflow. -/
theorem C98_exact (c : Cfg) (l : List α) (d : Vector α w) (b : Nat) (hw : 0 < w)
    (hlen : l.length + 2 * w < c.usize) :
    ∀ (ops : List ZipOp) (s : Option (Vector α w) × Nat), b ≤ s.2 →
    max s.2 (b + l.length + 1) + 2 * zadvanced ops + 2 * w < c.usize →
    runZip c (pairsAt l d b s.1 s.2) ops =
      (runPairs c l d b ops s >>= fun r => ok (r.1, pairsAt l d b r.2.1 r.2.2)) := by
  intro ops
  induction ops with
  | nil => intro s _ _; rfl
  | cons op ops ih =>
    intro s hb hp
    have hz : zadvanced (op :: ops) = zadvanced [op] + zadvanced ops := by
      cases op <;> simp [zadvanced]
    have h1 := pairs_step_exact c l d b s.1 s.2 op hw hlen hb (by omega)
    simp only [runZip, runPairs, h1]
    cases h2 : pairMachine c l d b op (s.1, s.2) with
    | ok r =>
      obtain ⟨o, s'⟩ := r
      have h3 := pairMachine_moves c l d b op s hb o s' h2
      have h4 := ih s' h3.1 (by omega)
      simp only [ok_bind, h4]
      cases runPairs c l d b ops s' <;> rfl
    | panic => rfl
    | ub => rfl
    | hang => rfl

/-- The vectors of pairs of `l` beginning at the given positions. -/
def pairsFrom (l : List α) (w : Nat) (ps : List Nat) : List (List (Option α × Option α)) :=
  ps.map fun p => (List.range w).map fun i => (l[p + 2 * i]?, l[p + 2 * i + 1]?)

/-- The vectors of pairs `next` returned, lane by lane. -/
def nextPairs (os : List (ZipOut (Vector α w × Vector α w))) : List (List (Option α × Option α)) :=
  os.filterMap fun
    | .vec (some v) => some (List.ofFn fun i : Fin w => (some v.1[i], some v.2[i]))
    | _ => none

omit [Packable α] in
/-- Without `finalize` the machine hands out pairs in order, each at most once. -/
theorem runPairs_order (c : Cfg) (l : List α) (d : Vector α w) (b : Nat) (hw : 0 < w) :
    ∀ (ops : List ZipOp) (s : Option (Vector α w) × Nat)
      (os : List (ZipOut (Vector α w × Vector α w))) (s' : Option (Vector α w) × Nat),
    .finalize ∉ ops → runPairs c l d b ops s = ok (os, s') →
    ∃ ps : List Nat, nextPairs os = pairsFrom l w ps ∧ (∀ p ∈ ps, s.2 ≤ p ∧ p + 2 * w ≤ l.length) ∧
      ps.Pairwise (fun p q => p + 2 * w ≤ q) := by
  intro ops
  induction ops with
  | nil =>
    intro s os s' _ h
    simp only [runPairs, ok.injEq, Prod.mk.injEq] at h
    rw [← h.1]
    exact ⟨[], rfl, by simp, List.Pairwise.nil⟩
  | cons op ops ih =>
    intro s os s' hf h
    have hf2 : .finalize ∉ ops := fun h => hf (by simp [h])
    obtain ⟨k, p⟩ := s
    simp only [runPairs] at h
    cases h2 : pairMachine c l d b op (k, p) with
    | ok r =>
      obtain ⟨o, s1⟩ := r
      simp only [h2, ok_bind] at h
      cases h3 : runPairs c l d b ops s1 with
      | ok r =>
        obtain ⟨os1, s2⟩ := r
        simp only [h3, ok_bind, ok.injEq, Prod.mk.injEq] at h
        obtain ⟨ps, h4, h5, h6⟩ := ih s1 os1 s2 hf2 h3
        rw [← h.1]
        -- other calls hand out nothing and do not move back
        have other : nextPairs [o] = [] → p ≤ s1.2 →
            ∃ ps : List Nat, nextPairs (o :: os1) = pairsFrom l w ps ∧
              (∀ q ∈ ps, p ≤ q ∧ q + 2 * w ≤ l.length) ∧
              ps.Pairwise (fun p q => p + 2 * w ≤ q) := by
          intro e1 e2
          refine ⟨ps, ?_, fun q hq => ⟨by have := h5 q hq; omega, (h5 q hq).2⟩, h6⟩
          rw [← h4]
          have : nextPairs (o :: os1) = nextPairs [o] ++ nextPairs os1 := by
            simp only [nextPairs, ← List.filterMap_append]; rfl
          rw [this, e1, List.nil_append]
        cases op with
        | next =>
          simp only [pairMachine] at h2
          split at h2
          · rename_i h7
            simp only [ok.injEq, Prod.mk.injEq] at h2
            obtain ⟨rfl, rfl⟩ := h2
            refine ⟨p :: ps, ?_, ?_, ?_⟩
            · simp only [nextPairs, List.filterMap_cons, pairsFrom, List.map_cons]
              congr 1
              apply List.ext_getElem
              · simp
              · intro i h8 h9
                simp only [List.length_ofFn] at h8
                simp only [List.getElem_ofFn, List.getElem_map, List.getElem_range, Fin.getElem_fin,
                  Vector.getElem_ofFn]
                rw [List.getElem?_eq_getElem (by omega), List.getElem?_eq_getElem (by omega)]
            · intro q hq
              rcases List.mem_cons.1 hq with rfl | hq
              · exact ⟨Nat.le_refl _, h7⟩
              · have := h5 q hq
                simp only at this ⊢
                omega
            · exact List.Pairwise.cons (fun q hq => (h5 q hq).1) h6
          · split at h2 <;>
            · simp only [ok.injEq, Prod.mk.injEq] at h2
              obtain ⟨rfl, rfl⟩ := h2
              exact other rfl (by simp)
        | end_ =>
          simp only [pairMachine] at h2
          split at h2
          · simp only [ok.injEq, Prod.mk.injEq] at h2
            obtain ⟨rfl, rfl⟩ := h2
            exact other rfl (by simp)
          · split at h2
            · cases h2
            · split at h2
              · simp only [ok.injEq, Prod.mk.injEq] at h2
                obtain ⟨rfl, rfl⟩ := h2
                exact other rfl (by simp only; omega)
              · split at h2
                · unfold badAccess at h2
                  split at h2 <;> cases h2
                · simp only [ok.injEq, Prod.mk.injEq] at h2
                  obtain ⟨rfl, rfl⟩ := h2
                  exact other rfl (by simp only; omega)
        | finalize => exact absurd (by simp) hf
        | advance n =>
          simp only [pairMachine, ok.injEq, Prod.mk.injEq] at h2
          obtain ⟨rfl, rfl⟩ := h2
          exact other rfl (by simp)
        | len =>
          simp only [pairMachine, ok.injEq, Prod.mk.injEq] at h2
          obtain ⟨rfl, rfl⟩ := h2
          exact other rfl (by simp)
        | scalarPos =>
          simp only [pairMachine, ok.injEq, Prod.mk.injEq] at h2
          obtain ⟨rfl, rfl⟩ := h2
          exact other rfl (by simp)
        | scalarLen =>
          simp only [pairMachine, ok.injEq, Prod.mk.injEq] at h2
          obtain ⟨rfl, rfl⟩ := h2
          exact other rfl (by simp)
        | vectorPos =>
          simp only [pairMachine, ok.injEq, Prod.mk.injEq] at h2
          obtain ⟨rfl, rfl⟩ := h2
          exact other rfl (by simp)
        | vectorLen =>
          simp only [pairMachine, ok.injEq, Prod.mk.injEq] at h2
          obtain ⟨rfl, rfl⟩ := h2
          exact other rfl (by simp)
      | panic => simp only [h3, panic_bind, reduceCtorEq] at h
      | ub => simp only [h3, ub_bind, reduceCtorEq] at h
      | hang => rw [h3] at h; cases h
    | panic => simp only [h2, panic_bind, reduceCtorEq] at h
    | ub => simp only [h2, ub_bind, reduceCtorEq] at h
    | hang => rw [h2] at h; cases h

/-- **C98**: whatever calls other than `finalize` are made, the vectors of pairs which `next`
returns are disjoint and in the order of the slice. -/
theorem C98_order (c : Cfg) (l : List α) (d : Vector α w) (b : Nat) (hw : 0 < w)
    (hlen : l.length + 2 * w < c.usize) (ops : List ZipOp) (k : Option (Vector α w)) (p : Nat)
    (hb : b ≤ p) (hp : max p (b + l.length + 1) + 2 * zadvanced ops + 2 * w < c.usize)
    (hf : .finalize ∉ ops) (os : List (ZipOut (Vector α w × Vector α w)))
    (z : StrideZip (SIMDIter (Slice α w) α w) α w)
    (h : runZip c (pairsAt l d b k p) ops = ok (os, z)) :
    ∃ ps : List Nat, nextPairs os = pairsFrom l w ps ∧ (∀ q ∈ ps, p ≤ q ∧ q + 2 * w ≤ l.length) ∧
      ps.Pairwise (fun p q => p + 2 * w ≤ q) := by
  rw [C98_exact c l d b hw hlen ops (k, p) hb hp] at h
  cases h2 : runPairs c l d b ops (k, p) with
  | ok r =>
    obtain ⟨os1, s1⟩ := r
    simp only [h2, ok_bind, ok.injEq, Prod.mk.injEq] at h
    rw [← h.1]
    exact runPairs_order c l d b hw ops (k, p) os1 s1 hf h2
  | panic => simp only [h2, panic_bind, reduceCtorEq] at h
  | ub => simp only [h2, ub_bind, reduceCtorEq] at h
  | hang => rw [h2] at h; cases h

/-- Made at position 1 of seven elements: a vector of pairs, `None` with a vector kept back,
then the rest. -/
example : (do
    let (os, _) ← runZip debug64 (pairsAt [1#8, 2, 3, 4, 5, 6, 7, 8] #v[0#8, 0] 1 none 1)
      [.next, .next, .scalarPos, .end_, .end_]
    ok os) = ok [.vec (some (#v[2, 4], #v[3, 5])), .vec none, .num 3,
      .tail (some ((#v[6, 0], #v[7, 8]), 1)), .tail none] := by
  rw [C98_exact debug64 _ _ _ (by decide) (by decide) _ (none, 1) (by decide) (by decide)]
  decide +kernel

end
end Faster
