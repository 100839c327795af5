import Verif.Props.Views
/-
C75, C76, C77: arbitrary sequences of calls of the safe methods of an iterator.
-/
namespace Faster
open Res SIMDSized SIMDIterable SIMDIterator

/-! ### Sequences of calls -/

/-- A call of a safe method of a slice iterator. `scalar` stands for
`unpack`, one `next` of the scalar view and `pack`. -/
inductive IterOp where
  | next | end_ | scalar
  | advance (k : Nat) | finalize
  | len | scalarPos | scalarLen | vectorLen | vectorPos
  | load (offset : Nat) | loadScalar (offset : Nat)
deriving Repr, DecidableEq

/-- What a call returned. -/
inductive IterOut (α : Type) (w : Nat) where
  | vec (r : Option (Vector α w))
  | tail (r : Option (Vector α w × Nat))
  | elem (r : Option α)
  | loaded (v : Vector α w)
  | loadedScalar (x : α)
  | num (n : Nat)
  | unit
deriving DecidableEq

section Run
variable {I α : Type} {w : Nat} [SIMDSized I] [SIMDIterator I α w] [SIMDArray I α w]

/-- Run one call. -/
def IterOp.step (c : Cfg) (it : I) : IterOp → Res (IterOut α w × I)
  | .next => do
    let (r, it) ← SIMDIterable.next c it
    ok (.vec r, it)
  | .end_ => do
    let (r, it) ← SIMDIterator.end_ c it
    ok (.tail r, it)
  | .scalar => do
    let (r, u) ← Unpacked.next c (unpack it)
    ok (.elem r, u.pack)
  | .advance k => do
    let it ← SIMDIterable.advance c it k
    ok (.unit, it)
  | .finalize => do
    let it ← Faster.finalize c it
    ok (.unit, it)
  | .len => do ok (.num (← SIMDIterable.len c it), it)
  | .scalarPos => do ok (.num (← SIMDIterable.scalarPos c it), it)
  | .scalarLen => do ok (.num (← SIMDSized.scalarLen c it), it)
  | .vectorLen => do ok (.num (← SIMDIterable.vecLen c it), it)
  | .vectorPos => do ok (.num (← SIMDIterable.vectorPos c it), it)
  | .load o => do ok (.loaded (← SIMDArray.load c it o), it)
  | .loadScalar o => do ok (.loadedScalar (← SIMDArray.loadScalar c it o), it)

/-- Run a sequence of calls; the values returned, in order, and the iterator
afterwards. -/
def runOps (c : Cfg) (it : I) : List IterOp → Res (List (IterOut α w) × I)
  | [] => ok ([], it)
  | op :: ops => do
    let (o, it) ← op.step c it
    let (os, it) ← runOps c it ops
    ok (o :: os, it)

end Run

/-- The elements of the collection which a call handed out: the lanes of a
vector of `next`, the lanes of a vector of `end` after the default's, the
scalar of a scalar view. -/
def IterOut.delivered {α : Type} {w : Nat} : IterOut α w → List α
  | .vec (some v) => v.toList
  | .tail (some (v, n)) => v.toList.drop n
  | .elem (some x) => [x]
  | _ => []

/-! ### One call, exactly -/

section Exact
variable {α : Type} {w : Nat}

/-- The iterator over `data` at `p`. -/
abbrev iterAt (data : List α) (d : Vector α w) (p : Nat) : SIMDIter (Slice α w) α w :=
  ⟨p, ⟨data⟩, d⟩

theorem next_exact (c : Cfg) (data : List α) (d : Vector α w) (p : Nat)
    (hlen : data.length + w < c.usize) (hp : p < c.usize) :
    next c (iterAt data d p) =
      if h : p + w ≤ data.length then ok (some (windowAt data p w h), iterAt data d (p + w))
      else if p + w < c.usize then ok (none, iterAt data d p)
      else if c.debug ∨ p + w - c.usize ≤ data.length then panic
      else ok (none, iterAt data d p) := by
  have hr := represents_slice (w := w) c data
  by_cases h1 : p + w ≤ data.length
  · rw [dif_pos h1, simdIter_next_some hr h1 (by omega)]
  · rw [dif_neg h1]
    by_cases h2 : p + w < c.usize
    · rw [if_pos h2, simdIter_next_none hr (by omega) h2]
    · rw [if_neg h2]
      simp only [SIMDIterable.next, SIMDIter.next, uadd, if_neg h2]
      cases hd : c.debug with
      | true => simp
      | false =>
        have hm : (p + w) % c.usize = p + w - c.usize := by
          rw [Nat.mod_eq_sub_mod (by omega), Nat.mod_eq_of_lt (by omega)]
        simp only [Bool.false_eq_true, if_false, ok_bind, SIMDSized.scalarLen, hm, false_or]
        by_cases h3 : p + w - c.usize ≤ data.length
        · rw [if_pos h3, if_pos h3]
          simp only [SIMDArray.loadUnchecked, hd, Packed.loadUnchecked, sliceFrom]
          rw [if_neg (c := p ≤ data.length) (by omega)]
          simp
        · rw [if_neg h3, if_neg h3]

theorem finalize_exact (c : Cfg) (data : List α) (d : Vector α w) (p : Nat)
    (hlen : data.length + w < c.usize) (hp : p < c.usize) :
    finalize c (iterAt data d p) =
      if c.debug ∧ data.length < p then panic else ok (iterAt data d data.length) := by
  simp only [finalize, SIMDSized.scalarLen, SIMDIterable.scalarPos, ok_bind]
  by_cases h : p ≤ data.length
  · rw [usub_ok h, if_neg (by omega)]
    simp only [ok_bind, SIMDIterable.advance, SIMDIter.advance]
    rw [uadd_ok (by omega), show p + (data.length - p) = data.length by omega]
    rfl
  · unfold usub
    rw [if_neg h]
    cases hd : c.debug with
    | true => simp; omega
    | false =>
      have hm : (c.usize + data.length - p) % c.usize = c.usize + data.length - p :=
        Nat.mod_eq_of_lt (by omega)
      simp only [Bool.false_eq_true, if_false, ok_bind, SIMDIterable.advance, SIMDIter.advance,
        uadd, hm, false_and]
      rw [if_neg (by omega), show p + (c.usize + data.length - p) = data.length + c.usize by omega,
        Nat.add_mod_right, Nat.mod_eq_of_lt (by omega)]
      simp [hd]

theorem advance_exact (c : Cfg) (data : List α) (d : Vector α w) (p k : Nat) :
    advance c (iterAt data d p) k =
      if p + k < c.usize then ok (iterAt data d (p + k))
      else if c.debug then panic else ok (iterAt data d ((p + k) % c.usize)) := by
  simp only [SIMDIterable.advance, SIMDIter.advance, uadd]
  split
  · rfl
  · split <;> rfl


/-- The one kind of call with undefined behaviour: in a release build, `end` at
a position inside a collection of at most one vector, not at its start. -/
def BadCall (c : Cfg) (data : List α) (w : Nat) (op : IterOp) (p : Nat) : Prop :=
  c.debug = false ∧ op = .end_ ∧ 0 < p ∧ p < data.length ∧ data.length ≤ w

/-- What a call which returns does to the position: `next`, `end` and `scalar`
hand out the elements from the old to the new position, and do not pass the end
of the collection; `advance` and `finalize` hand out nothing; all other calls do
not move. -/
def Moves (c : Cfg) (data : List α) (op : IterOp) (p : Nat) (out : List α) (q : Nat) : Prop :=
  match op with
  | .advance k => out = [] ∧ (q = p + k ∨ c.debug = false ∧ c.usize ≤ p + k ∧ q = (p + k) % c.usize)
  | .finalize => out = [] ∧ q = data.length
  | _ => out = (data.take q).drop p ∧ p ≤ q ∧ (p < q → q ≤ data.length)

/-- The three possible outcomes of one call. -/
theorem step_spec (c : Cfg) (data : List α) (d : Vector α w) (p : Nat)
    (hlen : data.length + w < c.usize) (hp : p < c.usize) (op : IterOp) :
    (op.step c (iterAt data d p) = ub ∧ BadCall c data w op p) ∨
    (¬ BadCall c data w op p ∧
      (op.step c (iterAt data d p) = panic ∨
       ∃ o q, op.step c (iterAt data d p) = ok (o, iterAt data d q) ∧ q < c.usize ∧
        Moves c data op p o.delivered q)) := by
  have stay : ∀ o : IterOut α w, o.delivered = [] →
      o.delivered = (data.take p).drop p ∧ p ≤ p ∧ (p < p → p ≤ data.length) := by
    intro o ho
    refine ⟨?_, Nat.le_refl _, fun h => absurd h (Nat.lt_irrefl _)⟩
    rw [ho, List.drop_eq_nil_of_le]
    simp; omega
  cases op with
  | next =>
    refine .inr ⟨by simp [BadCall], ?_⟩
    simp only [IterOp.step, next_exact c data d p hlen hp]
    by_cases h1 : p + w ≤ data.length
    · refine .inr ⟨.vec (some (windowAt data p w h1)), p + w, by rw [dif_pos h1]; rfl, by omega, ?_⟩
      refine ⟨?_, by omega, fun _ => h1⟩
      simp only [IterOut.delivered, windowAt_toList]
      rw [List.drop_take, Nat.add_sub_cancel_left]
    · rw [dif_neg h1]
      by_cases h2 : p + w < c.usize
      · rw [if_pos h2]
        exact .inr ⟨.vec none, p, rfl, hp, stay _ rfl⟩
      · rw [if_neg h2]
        by_cases h3 : c.debug ∨ p + w - c.usize ≤ data.length
        · rw [if_pos h3]; exact .inl rfl
        · rw [if_neg h3]
          exact .inr ⟨.vec none, p, rfl, hp, stay _ rfl⟩
  | end_ =>
    simp only [IterOp.step, simdIter_end_exact (represents_slice c data) p d hlen]
    by_cases h1 : data.length ≤ p
    · rw [if_pos h1]
      exact .inr ⟨by simp [BadCall]; omega, .inr ⟨.tail none, p, rfl, hp, stay _ rfl⟩⟩
    · rw [if_neg h1]
      by_cases h2 : w < data.length - p
      · rw [if_pos h2]
        exact .inr ⟨by simp [BadCall]; omega, .inl rfl⟩
      · rw [if_neg h2]
        by_cases h3 : 0 < p ∧ data.length ≤ w
        · rw [if_pos h3]
          cases hd : c.debug with
          | true => exact .inr ⟨by simp [BadCall, hd], .inl (by simp [badAccess, hd])⟩
          | false =>
            refine .inl ⟨by simp [badAccess, hd], hd, rfl, h3.1, by omega, h3.2⟩
        · rw [if_neg h3]
          refine .inr ⟨by simp [BadCall]; omega, .inr ⟨.tail (some (padFront d (data.drop p),
            w - (data.length - p))), data.length, rfl, by omega, ?_, by omega, fun _ => Nat.le_refl _⟩⟩
          have := padFront_drop d (data.drop p) (by simp; omega)
          simp only [List.length_drop] at this
          simp only [IterOut.delivered, this, List.take_length]
  | scalar =>
    refine .inr ⟨by simp [BadCall], .inr ?_⟩
    simp only [IterOp.step, unpack, unpacked_next c data d p (by omega), ok_bind, Unpacked.pack]
    by_cases h : p < data.length
    · rw [if_pos h]
      refine ⟨_, p + 1, rfl, by omega, ?_, by omega, fun _ => h⟩
      rw [List.getElem?_eq_getElem h]
      simp only [IterOut.delivered]
      rw [List.drop_take, Nat.add_sub_cancel_left, List.drop_eq_getElem_cons h, List.take_succ_cons,
        List.take_zero]
    · rw [if_neg h, List.getElem?_eq_none (by omega)]
      exact ⟨.elem none, p, rfl, hp, stay _ rfl⟩
  | advance k =>
    refine .inr ⟨by simp [BadCall], ?_⟩
    simp only [IterOp.step, advance_exact]
    by_cases h : p + k < c.usize
    · rw [if_pos h]
      exact .inr ⟨.unit, p + k, rfl, h, rfl, .inl rfl⟩
    · rw [if_neg h]
      cases hd : c.debug with
      | true => exact .inl rfl
      | false =>
        exact .inr ⟨.unit, (p + k) % c.usize, rfl, Nat.mod_lt _ (by omega), rfl,
          .inr ⟨hd, by omega, rfl⟩⟩
  | finalize =>
    refine .inr ⟨by simp [BadCall], ?_⟩
    simp only [IterOp.step, finalize_exact c data d p hlen hp]
    by_cases h : c.debug ∧ data.length < p
    · rw [if_pos h]; exact .inl rfl
    · rw [if_neg h]
      exact .inr ⟨.unit, data.length, rfl, by omega, rfl, rfl⟩
  | len =>
    refine .inr ⟨by simp [BadCall], ?_⟩
    simp only [IterOp.step, SIMDIterable.len, SIMDSized.scalarLen, udiv, ok_bind]
    by_cases h : w = 0
    · rw [if_pos h]; exact .inl rfl
    · rw [if_neg h]; exact .inr ⟨.num _, p, rfl, hp, stay _ rfl⟩
  | scalarPos =>
    exact .inr ⟨by simp [BadCall], .inr ⟨.num p, p, rfl, hp, stay _ rfl⟩⟩
  | scalarLen =>
    exact .inr ⟨by simp [BadCall], .inr ⟨.num data.length, p, rfl, hp, stay _ rfl⟩⟩
  | vectorLen =>
    refine .inr ⟨by simp [BadCall], ?_⟩
    simp only [IterOp.step, SIMDIterable.vecLen, SIMDSized.scalarLen, udiv, ok_bind]
    by_cases h : w = 0
    · rw [if_pos h]; exact .inl rfl
    · rw [if_neg h]; exact .inr ⟨.num _, p, rfl, hp, stay _ rfl⟩
  | vectorPos =>
    refine .inr ⟨by simp [BadCall], ?_⟩
    simp only [IterOp.step, SIMDIterable.vectorPos, udiv, ok_bind]
    by_cases h : w = 0
    · rw [if_pos h]; exact .inl rfl
    · rw [if_neg h]; exact .inr ⟨.num _, p, rfl, hp, stay _ rfl⟩
  | load o =>
    refine .inr ⟨by simp [BadCall], ?_⟩
    by_cases h : o + w ≤ data.length
    · refine .inr ⟨.loaded (windowAt data o w h), p, ?_, hp, stay _ rfl⟩
      simp only [IterOp.step, SIMDArray.load, load_ok h, ok_bind]
    · refine .inl ?_
      simp only [IterOp.step, SIMDArray.load, Packed.load, sliceFrom]
      by_cases h2 : o ≤ data.length
      · simp only [if_pos h2, ok_bind, Packed.fromSlice, Faster.assert, List.length_drop]
        rw [if_neg (by simp; omega)]
        rfl
      · rw [if_neg h2]; rfl
  | loadScalar o =>
    refine .inr ⟨by simp [BadCall], ?_⟩
    by_cases h : o < data.length
    · refine .inr ⟨.loadedScalar data[o], p, ?_, hp, stay _ rfl⟩
      simp only [IterOp.step, SIMDArray.loadScalar, index_ok h, ok_bind]
    · refine .inl ?_
      simp only [IterOp.step, SIMDArray.loadScalar, index, List.getElem?_eq_none (Nat.le_of_not_lt h)]
      rfl

end Exact

/-! ### C75 -/

section C75
variable {α : Type} {w : Nat}

/-- **C75 is false, exactly**: a sequence of calls has undefined behaviour if and
only if, in a release build, it calls `end` at a position inside a collection of
at most one vector and not at its start. -/
theorem C75_exact (c : Cfg) (data : List α) (d : Vector α w) (hlen : data.length + w < c.usize) :
    ∀ (ops : List IterOp) (p : Nat), p < c.usize →
    (runOps c (iterAt data d p) ops = ub ↔
      ∃ pre post os q, ops = pre ++ .end_ :: post ∧
        runOps c (iterAt data d p) pre = ok (os, iterAt data d q) ∧
        c.debug = false ∧ 0 < q ∧ q < data.length ∧ data.length ≤ w) := by
  intro ops
  induction ops with
  | nil =>
    intro p _
    constructor
    · intro h; cases h
    · rintro ⟨pre, post, os, q, h, -⟩
      simp at h
  | cons op ops ih =>
    intro p hp
    have key : ∀ pre post os q, op :: ops = pre ++ .end_ :: post →
        runOps c (iterAt data d p) pre = ok (os, iterAt data d q) →
        c.debug = false → 0 < q → q < data.length → data.length ≤ w →
        (BadCall c data w op p) ∨ ∃ pre', pre = op :: pre' ∧ ops = pre' ++ .end_ :: post := by
      intro pre post os q h1 h2 h3 h4 h5 h6
      cases pre with
      | nil =>
        simp only [List.nil_append, List.cons.injEq] at h1
        simp only [runOps, ok.injEq, Prod.mk.injEq, SIMDIter.mk.injEq] at h2
        obtain ⟨-, h2, -⟩ := h2
        subst h2
        exact .inl ⟨h3, h1.1, h4, h5, h6⟩
      | cons a pre' =>
        simp only [List.cons_append, List.cons.injEq] at h1
        exact .inr ⟨pre', by rw [h1.1], h1.2⟩
    rcases step_spec c data d p hlen hp op with ⟨h1, h2⟩ | ⟨hb, h1 | ⟨o, q1, h1, hq1, -⟩⟩
    · constructor
      · intro _
        obtain ⟨h3, h4, h5, h6, h7⟩ := h2
        exact ⟨[], ops, [], p, by rw [h4]; rfl, rfl, h3, h5, h6, h7⟩
      · intro _
        simp only [runOps, h1, ub_bind]
    · constructor
      · intro h
        simp only [runOps, h1, panic_bind] at h
        cases h
      · rintro ⟨pre, post, os, q, h3, h4, h5, h6, h7, h8⟩
        rcases key pre post os q h3 h4 h5 h6 h7 h8 with h | ⟨pre', rfl, -⟩
        · exact absurd h hb
        · simp only [runOps, h1, panic_bind] at h4
          cases h4
    · have e : runOps c (iterAt data d p) (op :: ops) = ub ↔ runOps c (iterAt data d q1) ops = ub := by
        simp only [runOps, h1, ok_bind]
        cases runOps c (iterAt data d q1) ops <;> simp
      rw [e, ih q1 hq1]
      constructor
      · rintro ⟨pre, post, os, q, h3, h4, h5⟩
        exact ⟨op :: pre, post, o :: os, q, by rw [h3]; rfl, by simp only [runOps, h1, h4, ok_bind], h5⟩
      · rintro ⟨pre, post, os, q, h3, h4, h5, h6, h7, h8⟩
        rcases key pre post os q h3 h4 h5 h6 h7 h8 with h | ⟨pre', rfl, h9⟩
        · exact absurd h hb
        · simp only [runOps, h1, ok_bind] at h4
          cases h10 : runOps c (iterAt data d q1) pre' with
          | ok r =>
            rw [h10] at h4
            simp only [ok_bind, ok.injEq, Prod.mk.injEq] at h4
            exact ⟨pre', post, r.1, q, h9, by rw [h10, ← h4.2], h5, h6, h7, h8⟩
          | panic => rw [h10] at h4; cases h4
          | ub => rw [h10] at h4; cases h4
          | hang => rw [h10] at h4; cases h4

/-- **C75 is false**: taking one scalar, then calling `end`, writes outside a
vector. -/
theorem C75_false : ∃ (data : List (BitVec 8)) (ops : List IterOp),
    runOps release64 (simdIter (w := 4) data (Vector.replicate 4 0)) ops = ub :=
  ⟨[1, 2, 3], [.scalar, .end_], by decide +kernel⟩

/-- **C75**, the part which holds: sequences of calls of every length are memory
safe if the collection is longer than a vector, or `end` is not called, or the
build is a debug build. Missing: `C75_exact`. -/
theorem C75_safe_partial (c : Cfg) (data : List α) (d : Vector α w) (p : Nat) (ops : List IterOp)
    (hlen : data.length + w < c.usize) (hp : p < c.usize)
    (h : w < data.length ∨ .end_ ∉ ops ∨ c.debug = true) :
    (runOps c (iterAt data d p) ops).isSafe := by
  have h2 : runOps c (iterAt data d p) ops ≠ ub := by
    rw [ne_eq, C75_exact c data d hlen ops p hp]
    rintro ⟨pre, post, os, q, h3, -, h5, -, -, h8⟩
    rcases h with h | h | h
    · omega
    · rw [h3] at h; simp at h
    · rw [h5] at h; cases h
  cases h3 : runOps c (iterAt data d p) ops with
  | ub => exact absurd h3 h2
  | _ => trivial

/-- `next` and `scalar` are safe at every position, also where `position + width`
overflows: such a `next` panics or returns `None`. -/
theorem C75_next_overflow (c : Cfg) (data : List α) (d : Vector α w) (p : Nat)
    (hlen : data.length + w < c.usize) (hp : p < c.usize) (h : c.usize ≤ p + w) :
    next c (iterAt data d p) =
      if c.debug ∨ p + w - c.usize ≤ data.length then panic else ok (none, iterAt data d p) := by
  rw [next_exact c data d p hlen hp, dif_neg (by omega), if_neg (by omega)]

/-- **C15 is false** if the iterator was moved close to the end of the `usize`
range: `end` returned `None`, and the next `next` panics, in both builds. -/
theorem C15_false : ∃ it : SIMDIter (Slice (BitVec 8) 2) (BitVec 8) 2,
    end_ debug64 it = ok (none, it) ∧ next debug64 it = panic ∧
    end_ release64 it = ok (none, it) ∧ next release64 it = panic :=
  ⟨iterAt [1, 2, 3] #v[0, 0] (2 ^ 64 - 1), by decide +kernel, by decide +kernel,
    by decide +kernel, by decide +kernel⟩

/-- **C15** from every position: after `end`, `end` returns `None` and changes
nothing, and `next` returns `None` or panics. -/
theorem C15_end_any (c : Cfg) (data : List α) (d : Vector α w) (p : Nat) (hw : 0 < w)
    (hlen : data.length + w < c.usize) (hp : p < c.usize) (r : Option (Vector α w × Nat))
    (it' : SIMDIter (Slice α w) α w) (h : end_ c (iterAt data d p) = ok (r, it')) :
    end_ c it' = ok (none, it') ∧ (next c it' = ok (none, it') ∨ next c it' = panic) := by
  have hr := represents_slice (w := w) c data
  have key : ∀ q, q < c.usize → data.length ≤ q →
      end_ c (iterAt data d q) = ok (none, iterAt data d q) ∧
        (next c (iterAt data d q) = ok (none, iterAt data d q) ∨
          next c (iterAt data d q) = panic) := by
    intro q hq h1
    refine ⟨by rw [simdIter_end_exact hr q d hlen, if_pos h1], ?_⟩
    rw [next_exact c data d q hlen hq, dif_neg (by omega)]
    by_cases h2 : q + w < c.usize
    · rw [if_pos h2]; exact .inl rfl
    · rw [if_neg h2]
      by_cases h3 : c.debug ∨ q + w - c.usize ≤ data.length
      · rw [if_pos h3]; exact .inr rfl
      · rw [if_neg h3]; exact .inl rfl
  rw [simdIter_end_exact hr p d hlen] at h
  by_cases h1 : data.length ≤ p
  · rw [if_pos h1] at h
    simp only [ok.injEq, Prod.mk.injEq] at h
    rw [← h.2]
    exact key p hp h1
  · rw [if_neg h1] at h
    by_cases h2 : w < data.length - p
    · simp [h2] at h
    · rw [if_neg h2] at h
      by_cases h3 : 0 < p ∧ data.length ≤ w
      · rw [if_pos h3] at h
        unfold badAccess at h
        split at h <;> cases h
      · rw [if_neg h3] at h
        simp only [ok.injEq, Prod.mk.injEq] at h
        rw [← h.2]
        exact key data.length (by omega) (Nat.le_refl _)

example : runOps release64 (simdIter (w := 2) [1#8, 2, 3] #v[0, 0])
    [.advance (2 ^ 64 - 1), .next] = panic := by decide +kernel

end C75

/-! ### C76 -/

section C76
variable {α : Type} {w : Nat}

/-- The sum of the amounts of all `advance` calls. -/
def advanced : List IterOp → Nat
  | [] => 0
  | .advance k :: ops => k + advanced ops
  | _ :: ops => advanced ops

/-- A call which does not skip elements on request. -/
def IterOp.keeps : IterOp → Bool
  | .advance _ => false
  | .finalize => false
  | _ => true

theorem runOps_cons_ok {c : Cfg} {data : List α} {d : Vector α w} {p : Nat} {op : IterOp}
    {ops : List IterOp} {os : List (IterOut α w)} {it' : SIMDIter (Slice α w) α w}
    (hlen : data.length + w < c.usize) (hp : p < c.usize)
    (h : runOps c (iterAt data d p) (op :: ops) = ok (os, it')) :
    ∃ o os' q, os = o :: os' ∧ op.step c (iterAt data d p) = ok (o, iterAt data d q) ∧
      q < c.usize ∧ Moves c data op p o.delivered q ∧
      runOps c (iterAt data d q) ops = ok (os', it') := by
  rcases step_spec c data d p hlen hp op with ⟨h1, -⟩ | ⟨-, h1 | ⟨o, q, h1, hq, hm⟩⟩
  · simp only [runOps, h1, ub_bind] at h; cases h
  · simp only [runOps, h1, panic_bind] at h; cases h
  · simp only [runOps, h1, ok_bind] at h
    cases h2 : runOps c (iterAt data d q) ops with
    | ok r =>
      rw [h2] at h
      simp only [ok_bind, ok.injEq, Prod.mk.injEq] at h
      exact ⟨o, r.1, q, h.1.symm, h1, hq, hm, by rw [← h.2]; exact h2⟩
    | panic => rw [h2] at h; cases h
    | ub => rw [h2] at h; cases h
    | hang => rw [h2] at h; cases h

/-- **C76**: whatever calls are made, in whatever order, the elements handed out
are elements of the collection in their order, each at most once; as long as
`advance` does not overflow the position. Missing: `C76_false`. -/
theorem C76_in_order_from_partial (c : Cfg) (data : List α) (d : Vector α w)
    (hlen : data.length + w < c.usize) :
    ∀ (ops : List IterOp) (p : Nat) (os : List (IterOut α w)) (it' : SIMDIter (Slice α w) α w),
    p < c.usize →
    (c.debug = true ∨ max p data.length + advanced ops < c.usize) →
    runOps c (iterAt data d p) ops = ok (os, it') →
    (os.flatMap IterOut.delivered).Sublist (data.drop p) := by
  intro ops
  induction ops with
  | nil =>
    intro p os it' _ _ h
    simp only [runOps, ok.injEq, Prod.mk.injEq] at h
    rw [← h.1]
    exact List.nil_sublist _
  | cons op ops ih =>
    intro p os it' hp hadv h
    obtain ⟨o, os', q, rfl, -, hq, hm, hrun⟩ := runOps_cons_ok hlen hp h
    simp only [List.flatMap_cons]
    cases op with
    | advance k =>
      obtain ⟨ho, hk⟩ := hm
      rw [ho, List.nil_append]
      simp only [advanced] at hadv
      have hk : q = p + k := by
        rcases hk with hk | ⟨h1, h2, -⟩
        · exact hk
        · rcases hadv with h3 | h3
          · rw [h1] at h3; cases h3
          · omega
      subst hk
      refine (ih (p + k) os' it' hq (hadv.imp_right (by omega)) hrun).trans ?_
      rw [← List.drop_drop]
      exact List.drop_sublist _ _
    | finalize =>
      obtain ⟨ho, rfl⟩ := hm
      rw [ho, List.nil_append]
      simp only [advanced] at hadv
      have := ih data.length os' it' hq (hadv.imp_right (by omega)) hrun
      rw [List.drop_length] at this
      rw [List.sublist_nil.mp this]
      exact List.nil_sublist _
    | _ =>
      obtain ⟨ho, h1, h2⟩ := hm
      simp only [advanced] at hadv
      have := ih q os' it' hq (hadv.imp_right (by omega)) hrun
      rw [ho]
      have e : data.drop p = (data.take q).drop p ++ data.drop q := by
        have := List.take_append_drop (q - p) (data.drop p)
        rw [List.drop_drop, Nat.add_sub_cancel' h1] at this
        rw [List.drop_take, this]
      rw [e]
      exact (List.Sublist.refl _).append this

/-- **C76** for a fresh iterator. -/
theorem C76_in_order_partial (c : Cfg) (data : List α) (d : Vector α w)
    (hlen : data.length + w < c.usize) (ops : List IterOp) (os : List (IterOut α w))
    (it' : SIMDIter (Slice α w) α w)
    (hadv : c.debug = true ∨ data.length + advanced ops < c.usize)
    (h : runOps c (simdIter data d) ops = ok (os, it')) :
    (os.flatMap IterOut.delivered).Sublist data := by
  have := C76_in_order_from_partial c data d hlen ops 0 os it' (by omega) (hadv.imp_right (by omega)) h
  rwa [List.drop_zero] at this

/-- **C76**: without `advance` and `finalize`, nothing is left out: the elements
handed out so far are exactly those before the position. -/
theorem C76_complete_from (c : Cfg) (data : List α) (d : Vector α w)
    (hlen : data.length + w < c.usize) :
    ∀ (ops : List IterOp) (p : Nat) (os : List (IterOut α w)) (it' : SIMDIter (Slice α w) α w),
    p ≤ data.length → (∀ op ∈ ops, op.keeps = true) →
    runOps c (iterAt data d p) ops = ok (os, it') →
    ∃ q, it' = iterAt data d q ∧ p ≤ q ∧ q ≤ data.length ∧
      os.flatMap IterOut.delivered = (data.take q).drop p := by
  intro ops
  induction ops with
  | nil =>
    intro p os it' hp _ h
    simp only [runOps, ok.injEq, Prod.mk.injEq] at h
    refine ⟨p, h.2.symm, Nat.le_refl _, hp, ?_⟩
    rw [← h.1, List.drop_eq_nil_of_le (by simp; omega)]
    rfl
  | cons op ops ih =>
    intro p os it' hp hk h
    obtain ⟨o, os', q, rfl, -, hq, hm, hrun⟩ := runOps_cons_ok hlen (by omega) h
    have hm' : o.delivered = (data.take q).drop p ∧ p ≤ q ∧ (p < q → q ≤ data.length) := by
      have := hk op (by simp)
      cases op with
      | advance k => simp [IterOp.keeps] at this
      | finalize => simp [IterOp.keeps] at this
      | _ => exact hm
    obtain ⟨ho, h1, h2⟩ := hm'
    have hq2 : q ≤ data.length := by
      by_cases h3 : p < q
      · exact h2 h3
      · omega
    obtain ⟨q', e1, h3, h4, e2⟩ := ih q os' it' hq2 (fun x hx => hk x (by simp [hx])) hrun
    refine ⟨q', e1, by omega, h4, ?_⟩
    rw [List.flatMap_cons, e2, ho]
    apply List.ext_getElem
    · simp; omega
    · intro i h5 h6
      rw [List.getElem_append]
      split
      · simp
      · rename_i h7
        simp only [List.length_drop, List.length_take] at h7
        simp only [List.getElem_drop, List.getElem_take, List.length_drop, List.length_take]
        congr 1
        omega

/-- **C76**: any mixture of `next`, `end`, scalar views and queries on a fresh
iterator after which `end` has nothing to return has handed out every element
exactly once, in order. -/
theorem C76_complete (c : Cfg) (data : List α) (d : Vector α w)
    (hlen : data.length + w < c.usize) (ops : List IterOp) (os : List (IterOut α w))
    (it' it'' : SIMDIter (Slice α w) α w) (hk : ∀ op ∈ ops, op.keeps = true)
    (h : runOps c (simdIter data d) ops = ok (os, it'))
    (he : end_ c it' = ok (none, it'')) :
    os.flatMap IterOut.delivered = data := by
  obtain ⟨q, rfl, -, h1, h2⟩ := C76_complete_from c data d hlen ops 0 os it' (by omega) hk h
  have hq : data.length ≤ q := by
    rw [simdIter_end_exact (represents_slice c data) q d hlen] at he
    by_cases h3 : data.length ≤ q
    · exact h3
    · rw [if_neg h3] at he
      split at he
      · cases he
      · split at he
        · unfold badAccess at he; split at he <;> cases he
        · simp at he
  rw [h2, List.drop_zero, List.take_of_length_le hq]

/-- **C76** fails without the bound on `advance`: in a release build, an `advance` which
overflows goes back, and elements are handed out again. -/
theorem C76_false : ∃ (os : List (IterOut (BitVec 8) 2))
    (it' : SIMDIter (Slice (BitVec 8) 2) (BitVec 8) 2),
    runOps release64 (simdIter (w := 2) [1#8, 2] #v[0, 0]) [.next, .advance (2 ^ 64 - 2), .next] =
      ok (os, it') ∧ os.flatMap IterOut.delivered = [1, 2, 1, 2] :=
  ⟨[.vec (some #v[1, 2]), .unit, .vec (some #v[1, 2])], ⟨2, ⟨[1, 2]⟩, #v[0, 0]⟩,
    by decide +kernel, by decide +kernel⟩

example : runOps debug64 (simdIter (w := 2) [1#8, 2, 3, 4, 5, 6] #v[0, 0])
    [.next, .scalar, .next, .len, .end_] =
    ok ([.vec (some #v[1, 2]), .elem (some 3), .vec (some #v[4, 5]), .num 3, .tail (some (#v[0, 6], 1))],
      ⟨6, ⟨[1, 2, 3, 4, 5, 6]⟩, #v[0, 0]⟩) := by decide +kernel

end C76

/-! ### C77 -/

/-- A call of a method which every `SIMDIterator` has. -/
inductive StreamOp where
  | next | end_ | advance (k : Nat) | scalarPos | len
deriving Repr, DecidableEq

/-- What a call returned. -/
inductive StreamOut (α : Type) (w : Nat) where
  | vec (r : Option (Vector α w))
  | tail (r : Option (Vector α w × Nat))
  | num (n : Nat)
  | unit
deriving DecidableEq

section Stream
variable {I α : Type} {w : Nat} [SIMDSized I] [SIMDIterator I α w]

/-- Run one call. -/
def StreamOp.step (c : Cfg) (it : I) : StreamOp → Res (StreamOut α w × I)
  | .next => do
    let (r, it) ← SIMDIterable.next c it
    ok (.vec r, it)
  | .end_ => do
    let (r, it) ← SIMDIterator.end_ c it
    ok (.tail r, it)
  | .advance k => do
    let it ← SIMDIterable.advance c it k
    ok (.unit, it)
  | .scalarPos => do ok (.num (← SIMDIterable.scalarPos c it), it)
  | .len => do ok (.num (← SIMDIterable.len c it), it)

/-- Run a sequence of calls. -/
def runStream (c : Cfg) (it : I) : List StreamOp → Res (List (StreamOut α w) × I)
  | [] => ok ([], it)
  | op :: ops => do
    let (o, it) ← op.step c it
    let (os, it) ← runStream c it ops
    ok (o :: os, it)

end Stream

section C77
variable {I σ α β : Type} {w w' : Nat}

/-- What a map has to return where the iterator below returns `o`: the closure
is called on a vector, once, and the number of unfilled lanes is converted to
output lanes by the ratio of the lane sizes `sa / sb`. -/
def mapOut (sa sb : Nat) (f : FnMut σ (Vector α w) (Vector β w')) (st : σ) :
    StreamOut α w → Res (StreamOut β w' × σ)
  | .vec none => ok (.vec none, st)
  | .vec (some v) => do
    let (u, st) ← f st v
    ok (.vec (some u), st)
  | .tail none => ok (.tail none, st)
  | .tail (some (v, n)) => do
    let (u, st) ← f st v
    ok (.tail (some (u, n * sa / sb)), st)
  | .num n => ok (.num n, st)
  | .unit => ok (.unit, st)

/-- The closure's state and the outputs over a sequence of returned values. -/
def mapOuts (sa sb : Nat) (f : FnMut σ (Vector α w) (Vector β w')) :
    σ → List (StreamOut α w) → Res (List (StreamOut β w') × σ)
  | st, [] => ok ([], st)
  | st, o :: os => do
    let (u, st) ← mapOut sa sb f st o
    let (us, st) ← mapOuts sa sb f st os
    ok (u :: us, st)

variable [SIMDSized I] [SIMDIterator I α w] [Packable α] [Packable β]

/-- `Inv` holds in every state the calls can reach, and where it holds the
number of unfilled lanes reported by `end`, in bytes, is a `usize`. -/
structure TailBound (c : Cfg) (Inv : I → Prop) : Prop where
  closed : ∀ (it it' : I) (op : StreamOp) (o : StreamOut α w), Inv it →
    op.step c it = ok (o, it') → Inv it'
  bound : ∀ (it it' : I) (v : Vector α w) (n : Nat), Inv it →
    end_ c it = ok (some (v, n), it') → n * Packable.size α < c.usize

theorem map_step_ok (c : Cfg) (it it' : I) (st : σ) (f : FnMut σ (Vector α w) (Vector β w'))
    (op : StreamOp) (o : StreamOut α w) (hb : 0 < Packable.size β)
    (hn : ∀ v n, o = .tail (some (v, n)) → n * Packable.size α < c.usize)
    (h : op.step c it = ok (o, it')) :
    op.step c (simdMap it st f) =
      (mapOut (Packable.size α) (Packable.size β) f st o >>= fun r =>
        ok (r.1, simdMap it' r.2 f)) := by
  cases op with
  | next =>
    simp only [StreamOp.step] at h ⊢
    cases h1 : next c it with
    | ok r =>
      rw [h1] at h
      simp only [ok_bind, ok.injEq, Prod.mk.injEq] at h
      obtain ⟨rfl, rfl⟩ := h
      obtain ⟨r, it1⟩ := r
      cases r with
      | none => simp [SIMDIterable.next, SIMDMap.next, simdMap, h1, mapOut]
      | some v =>
        simp only [SIMDIterable.next, SIMDMap.next, simdMap, h1, mapOut, ok_bind]
        cases h2 : f st v <;> simp
    | panic => rw [h1] at h; cases h
    | ub => rw [h1] at h; cases h
    | hang => rw [h1] at h; cases h
  | end_ =>
    simp only [StreamOp.step] at h ⊢
    cases h1 : end_ c it with
    | ok r =>
      rw [h1] at h
      simp only [ok_bind, ok.injEq, Prod.mk.injEq] at h
      obtain ⟨rfl, rfl⟩ := h
      obtain ⟨r, it1⟩ := r
      cases r with
      | none => simp [SIMDIterator.end_, SIMDMap.end_, simdMap, h1, mapOut]
      | some p =>
        obtain ⟨v, n⟩ := p
        simp only [SIMDIterator.end_, SIMDMap.end_, simdMap, h1, mapOut, ok_bind,
          umul_ok (hn v n rfl), udiv_ok hb]
        cases h2 : f st v <;> simp
    | panic => rw [h1] at h; cases h
    | ub => rw [h1] at h; cases h
    | hang => rw [h1] at h; cases h
  | advance k =>
    simp only [StreamOp.step] at h ⊢
    cases h1 : advance c it k with
    | ok r =>
      rw [h1] at h
      simp only [ok_bind, ok.injEq, Prod.mk.injEq] at h
      obtain ⟨rfl, rfl⟩ := h
      simp [SIMDIterable.advance, simdMap, h1, mapOut]
    | panic => rw [h1] at h; cases h
    | ub => rw [h1] at h; cases h
    | hang => rw [h1] at h; cases h
  | scalarPos =>
    simp only [StreamOp.step] at h ⊢
    cases h1 : scalarPos c it with
    | ok r =>
      rw [h1] at h
      simp only [ok_bind, ok.injEq, Prod.mk.injEq] at h
      obtain ⟨rfl, rfl⟩ := h
      simp [SIMDIterable.scalarPos, simdMap, h1, mapOut]
    | panic => rw [h1] at h; cases h
    | ub => rw [h1] at h; cases h
    | hang => rw [h1] at h; cases h
  | len =>
    simp only [StreamOp.step] at h ⊢
    cases h1 : SIMDIterable.len c it with
    | ok r =>
      rw [h1] at h
      simp only [ok_bind, ok.injEq, Prod.mk.injEq] at h
      obtain ⟨rfl, rfl⟩ := h
      simp [SIMDIterable.len, simdMap, h1, mapOut]
    | panic => rw [h1] at h; cases h
    | ub => rw [h1] at h; cases h
    | hang => rw [h1] at h; cases h

/-- **C77**: over any iterator and any sequence of calls, a map returns the
closure's results on the vectors which the same calls return on the iterator
below, calling it once per vector, in order, with its state threaded through;
the iterator below ends up in the same state. -/
theorem C77_map_calls (c : Cfg) (Inv : I → Prop) (hI : TailBound c Inv)
    (f : FnMut σ (Vector α w) (Vector β w')) (hb : 0 < Packable.size β) :
    ∀ (ops : List StreamOp) (it it' : I) (st : σ) (os : List (StreamOut α w)), Inv it →
    runStream c it ops = ok (os, it') →
    runStream c (simdMap it st f) ops =
      (mapOuts (Packable.size α) (Packable.size β) f st os >>= fun r =>
        ok (r.1, simdMap it' r.2 f)) := by
  intro ops
  induction ops with
  | nil =>
    intro it it' st os _ h
    simp only [runStream, ok.injEq, Prod.mk.injEq] at h
    obtain ⟨rfl, rfl⟩ := h
    rfl
  | cons op ops ih =>
    intro it it' st os hi h
    simp only [runStream] at h
    cases h1 : op.step c it with
    | ok r =>
      obtain ⟨o, it1⟩ := r
      rw [h1] at h
      simp only [ok_bind] at h
      cases h2 : runStream c it1 ops with
      | ok r2 =>
        obtain ⟨os', it2⟩ := r2
        rw [h2] at h
        simp only [ok_bind, ok.injEq, Prod.mk.injEq] at h
        obtain ⟨rfl, rfl⟩ := h
        have hn : ∀ v n, o = .tail (some (v, n)) → n * Packable.size α < c.usize := by
          intro v n ho
          subst ho
          refine tail_bound hI hi h1
        simp only [runStream, map_step_ok c it it1 st f op o hb hn h1, mapOuts]
        cases h3 : mapOut (Packable.size α) (Packable.size β) f st o with
        | ok r3 =>
          obtain ⟨u, st1⟩ := r3
          simp only [ok_bind, ih it1 it2 st1 os' (hI.closed it it1 op o hi h1) h2]
          cases mapOuts (Packable.size α) (Packable.size β) f st1 os' <;> rfl
        | panic => rfl
        | ub => rfl
        | hang => rfl
      | panic => rw [h2] at h; cases h
      | ub => rw [h2] at h; cases h
      | hang => rw [h2] at h; cases h
    | panic => rw [h1] at h; cases h
    | ub => rw [h1] at h; cases h
    | hang => rw [h1] at h; cases h
where
  tail_bound {Inv : I → Prop} (hI : TailBound c Inv) {it it' : I} {op : StreamOp} {v : Vector α w}
      {n : Nat} (hi : Inv it) (h : op.step c it = ok (.tail (some (v, n)), it')) :
      n * Packable.size α < c.usize := by
    cases op with
    | end_ =>
      simp only [StreamOp.step] at h
      cases h1 : end_ c it with
      | ok r =>
        rw [h1] at h
        simp only [ok_bind, ok.injEq, Prod.mk.injEq, StreamOut.tail.injEq] at h
        obtain ⟨r1, r2⟩ := r
        simp only at h
        obtain ⟨rfl, rfl⟩ := h
        exact hI.bound it r2 v n hi h1
      | panic => rw [h1] at h; cases h
      | ub => rw [h1] at h; cases h
      | hang => rw [h1] at h; cases h
    | next =>
      simp only [StreamOp.step] at h
      cases h1 : next c it <;> rw [h1] at h <;> simp at h
    | advance k =>
      simp only [StreamOp.step] at h
      cases h1 : advance c it k <;> rw [h1] at h <;> simp at h
    | scalarPos =>
      simp only [StreamOp.step] at h
      cases h1 : scalarPos c it <;> rw [h1] at h <;> simp at h
    | len =>
      simp only [StreamOp.step] at h
      cases h1 : SIMDIterable.len c it <;> rw [h1] at h <;> simp at h

/-- Where a call fails on the iterator below, it fails on the map in the same
way, before the closure is called. -/
theorem map_step_fail (c : Cfg) (it : I) (st : σ) (f : FnMut σ (Vector α w) (Vector β w'))
    (op : StreamOp) (h : ∀ x, op.step c it ≠ ok x) :
    op.step c (simdMap it st f) = (op.step c it).castFail := by
  cases op with
  | next =>
    simp only [StreamOp.step] at h ⊢
    cases h1 : next c it with
    | ok r => rw [h1] at h; exact absurd rfl (h _)
    | _ => simp only [SIMDIterable.next, SIMDMap.next, simdMap, h1]; rfl
  | end_ =>
    simp only [StreamOp.step] at h ⊢
    cases h1 : end_ c it with
    | ok r => rw [h1] at h; exact absurd rfl (h _)
    | _ => simp only [SIMDIterator.end_, SIMDMap.end_, simdMap, h1]; rfl
  | advance k =>
    simp only [StreamOp.step] at h ⊢
    cases h1 : advance c it k with
    | ok r => rw [h1] at h; exact absurd rfl (h _)
    | _ => simp only [SIMDIterable.advance, simdMap, h1]; rfl
  | scalarPos =>
    simp only [StreamOp.step] at h ⊢
    cases h1 : scalarPos c it with
    | ok r => rw [h1] at h; exact absurd rfl (h _)
    | _ => simp only [SIMDIterable.scalarPos, simdMap, h1]; rfl
  | len =>
    simp only [StreamOp.step] at h ⊢
    cases h1 : SIMDIterable.len c it with
    | ok r => rw [h1] at h; exact absurd rfl (h _)
    | _ => simp only [SIMDIterable.len, simdMap, h1]; rfl

/-- `mapOut` for a function. -/
def mapPure (sa sb : Nat) (g : Vector α w → Vector β w') : StreamOut α w → StreamOut β w'
  | .vec r => .vec (r.map g)
  | .tail r => .tail (r.map fun vn => (g vn.1, vn.2 * sa / sb))
  | .num n => .num n
  | .unit => .unit

omit [Packable α] [Packable β] in
theorem mapOut_pure (sa sb : Nat) (g : Vector α w → Vector β w') (o : StreamOut α w) :
    mapOut sa sb (pureFn g) () o = ok (mapPure sa sb g o, ()) := by
  cases o with
  | vec r => cases r <;> rfl
  | tail r => cases r <;> rfl
  | num n => rfl
  | unit => rfl

/-- **C77** for a function: every sequence of calls on the map has the outcome
which the same calls have on the iterator below, with `g` applied to the vectors
returned; also when a call panics. -/
theorem C77_map_pure (c : Cfg) (Inv : I → Prop) (hI : TailBound c Inv)
    (g : Vector α w → Vector β w') (hb : 0 < Packable.size β) :
    ∀ (ops : List StreamOp) (it : I), Inv it →
    runStream c (simdMap it () (pureFn g)) ops =
      (runStream c it ops >>= fun r =>
        ok (r.1.map (mapPure (Packable.size α) (Packable.size β) g), simdMap r.2 () (pureFn g))) := by
  intro ops
  induction ops with
  | nil => intro it _; rfl
  | cons op ops ih =>
    intro it hi
    cases h1 : op.step c it with
    | ok r =>
      obtain ⟨o, it1⟩ := r
      have hn : ∀ v n, o = .tail (some (v, n)) → n * Packable.size α < c.usize := by
        intro v n ho
        subst ho
        exact C77_map_calls.tail_bound c hI hi h1
      simp only [runStream, map_step_ok c it it1 () (pureFn g) op o hb hn h1, mapOut_pure, h1, ok_bind,
        ih it1 (hI.closed it it1 op o hi h1)]
      cases runStream c it1 ops <;> rfl
    | _ =>
      have := map_step_fail c it () (pureFn g) op (by rw [h1]; intro x hx; cases hx)
      rw [h1] at this
      simp only [runStream, this, h1, Res.castFail]
      rfl

end C77

section Instances
variable {α : Type} {w : Nat} [Packable α]

/-- Slice iterators satisfy the condition of C77 at every position. -/
theorem tailBound_slice (c : Cfg) (data : List α) (d : Vector α w)
    (hlen : data.length + w < c.usize) (hs : w * Packable.size α < c.usize) :
    TailBound c (fun it => ∃ p, p < c.usize ∧ it = iterAt data d p) where
  closed := by
    rintro it it' op o ⟨p, hp, rfl⟩ h
    let op' : IterOp := match op with
      | .next => .next | .end_ => .end_ | .advance k => .advance k
      | .scalarPos => .scalarPos | .len => .len
    have key : (∃ o', op'.step c (iterAt data d p) = ok (o', it')) := by
      cases op <;> simp only [StreamOp.step] at h <;> simp only [op', IterOp.step]
      · cases h1 : next c (iterAt data d p) <;> rw [h1] at h <;> simp at h
        exact ⟨_, by rw [← h.2]; rfl⟩
      · cases h1 : end_ c (iterAt data d p) <;> rw [h1] at h <;> simp at h
        exact ⟨_, by rw [← h.2]; rfl⟩
      · rename_i k
        cases h1 : advance c (iterAt data d p) k <;> rw [h1] at h <;> simp at h
        exact ⟨_, by rw [← h.2]; rfl⟩
      · cases h1 : scalarPos c (iterAt data d p) <;> rw [h1] at h <;> simp at h
        exact ⟨_, by rw [← h.2]; rfl⟩
      · cases h1 : SIMDIterable.len c (iterAt data d p) <;> rw [h1] at h <;> simp at h
        exact ⟨_, by rw [← h.2]; rfl⟩
    obtain ⟨o', h2⟩ := key
    rcases step_spec c data d p hlen hp op' with ⟨h1, -⟩ | ⟨-, h1 | ⟨o'', q, h1, hq, -⟩⟩
    · rw [h1] at h2; cases h2
    · rw [h1] at h2; cases h2
    · rw [h1] at h2
      simp only [ok.injEq, Prod.mk.injEq] at h2
      exact ⟨q, hq, h2.2.symm⟩
  bound := by
    rintro it it' v n ⟨p, hp, rfl⟩ h
    rw [simdIter_end_exact (represents_slice c data) p d hlen] at h
    split at h
    · simp at h
    · split at h
      · cases h
      · split at h
        · unfold badAccess at h; split at h <;> cases h
        · simp only [ok.injEq, Prod.mk.injEq, Option.some.injEq] at h
          have : n ≤ w := by omega
          exact Nat.lt_of_le_of_lt (Nat.mul_le_mul_right _ this) hs

/-- A map over an iterator which satisfies the condition of C77 satisfies it, so
that C77 applies to maps of maps. -/
theorem tailBound_map {I σ β : Type} {w' : Nat} [SIMDSized I] [SIMDIterator I α w] [Packable β]
    (c : Cfg) (Inv : I → Prop) (hI : TailBound c Inv) (hb : 0 < Packable.size β)
    (f : FnMut σ (Vector α w) (Vector β w')) :
    TailBound c (fun m : SIMDMap I σ α w β w' => ∃ it st, Inv it ∧ m = simdMap it st f) := by
  have inner : ∀ (it : I) (st : σ) (op : StreamOp) (o : StreamOut β w') (m' : SIMDMap I σ α w β w'),
      Inv it → op.step c (simdMap it st f) = ok (o, m') →
      ∃ o1 it1 st1, op.step c it = ok (o1, it1) ∧ m' = simdMap it1 st1 f ∧
        mapOut (Packable.size α) (Packable.size β) f st o1 = ok (o, st1) := by
    intro it st op o m' hi h
    cases h1 : op.step c it with
    | ok r =>
      obtain ⟨o1, it1⟩ := r
      have hn : ∀ v n, o1 = .tail (some (v, n)) → n * Packable.size α < c.usize := by
        intro v n ho
        subst ho
        exact C77_map_calls.tail_bound c hI hi h1
      rw [map_step_ok c it it1 st f op o1 hb hn h1] at h
      cases h2 : mapOut (Packable.size α) (Packable.size β) f st o1 with
      | ok r2 =>
        rw [h2] at h
        simp only [ok_bind, ok.injEq, Prod.mk.injEq] at h
        exact ⟨o1, it1, r2.2, rfl, h.2.symm, by rw [← h.1]; exact h2⟩
      | panic => rw [h2] at h; cases h
      | ub => rw [h2] at h; cases h
      | hang => rw [h2] at h; cases h
    | _ =>
      have := map_step_fail c it st f op (by rw [h1]; intro x hx; cases hx)
      rw [h1, h] at this
      cases this
  constructor
  · rintro m m' op o ⟨it, st, hi, rfl⟩ h
    obtain ⟨o1, it1, st1, h1, rfl, -⟩ := inner it st op o m' hi h
    exact ⟨it1, st1, hI.closed it it1 op o1 hi h1, rfl⟩
  · rintro m m' v n ⟨it, st, hi, rfl⟩ h
    have h' : StreamOp.step c (simdMap it st f) .end_ = ok (.tail (some (v, n)), m') := by
      simp only [StreamOp.step, h, ok_bind]
    obtain ⟨o1, it1, st1, h1, -, h3⟩ := inner it st .end_ _ m' hi h'
    obtain ⟨v1, n1, rfl, rfl⟩ := tail_inv h3
    have := C77_map_calls.tail_bound c hI hi h1
    exact Nat.lt_of_le_of_lt (Nat.div_mul_le_self _ _) this
where
  tail_inv {σ α β : Type} {w w' sa sb : Nat} {f : FnMut σ (Vector α w) (Vector β w')} {st st1 : σ}
      {o : StreamOut α w} {v : Vector β w'} {n : Nat}
      (h : mapOut sa sb f st o = ok (.tail (some (v, n)), st1)) :
      ∃ v1 n1, o = .tail (some (v1, n1)) ∧ n = n1 * sa / sb := by
    cases o with
    | vec r =>
      cases r with
      | none => simp [mapOut] at h
      | some v => simp only [mapOut] at h; cases h1 : f st v <;> rw [h1] at h <;> simp at h
    | tail r =>
      cases r with
      | none => simp [mapOut] at h
      | some p =>
        obtain ⟨v1, n1⟩ := p
        simp only [mapOut] at h
        cases h1 : f st v1 <;> rw [h1] at h <;> simp at h
        exact ⟨v1, n1, rfl, h.1.2.symm⟩
    | num n => simp [mapOut] at h
    | unit => simp [mapOut] at h

/-- **C77** for maps over slices: any sequence of calls from any position. -/
theorem C77_slice {β : Type} {w' : Nat} [Packable β] (c : Cfg) (data : List α) (d : Vector α w)
    (p : Nat) (hlen : data.length + w < c.usize) (hs : w * Packable.size α < c.usize)
    (hp : p < c.usize) (hb : 0 < Packable.size β) (g : Vector α w → Vector β w')
    (ops : List StreamOp) :
    runStream c (simdMap (iterAt data d p) () (pureFn g)) ops =
      (runStream c (iterAt data d p) ops >>= fun r =>
        ok (r.1.map (mapPure (Packable.size α) (Packable.size β) g), simdMap r.2 () (pureFn g))) :=
  C77_map_pure c _ (tailBound_slice c data d hlen hs) g hb ops _ ⟨p, hp, rfl⟩

example : (do
    let r ← runStream release64 (simdMap (simdIter (w := 4) [1#16, 2, 3, 4, 5] #v[0, 0, 0, 0]) 7#16
      (fun st v => ok (v.map (· + st), st + 1))) [.next, .len, .end_, .next]
    ok r.1) =
    ok [.vec (some #v[8, 9, 10, 11]), .num 1, .tail (some (#v[8, 8, 8, 13], 3)), .vec none] := by
  decide +kernel

end Instances

end Faster
