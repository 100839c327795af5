import Verif.Lemmas.BelowMut
import Verif.Lemmas.Driver
import Verif.Lemmas.Stride
import Verif.Props.Zip
import Verif.Props.ForEach
/-
C136: iterators over collections which the user of the crate defines. `SIMDArray`,
`SIMDArrayMut` and `SIMDSized` are public traits (src/iters.rs:178-204), the
fields of `SIMDIter` are public, and `stride_two` … are methods of every
`SIMDArray` (src/stride.rs:114). What the crate may rely on is the contract of
the unsafe methods: inside the bounds given by `scalar_len` they return what is
there; outside they may do anything.
-/
namespace Faster
open Res SIMDSized SIMDIterable SIMDIterator

section Contract
variable {A α : Type} {w : Nat} [SIMDSized A] [SIMDArray A α w]

/-- The collection `a` has the contents `l`: it reports its length, the unchecked loads give its
elements inside the bounds (`Represents`), and the checked ones panic outside. Nothing is said about
an unchecked load outside the bounds. -/
structure Agrees (c : Cfg) (a : A) (l : List α) : Prop extends Represents c a l where
  load : ∀ o, SIMDArray.load c a o = Packed.load l o
  loadScalar : ∀ i, SIMDArray.loadScalar c a i = index l i

end Contract

/-- The collection which keeps to the contract and nothing more: an unchecked load outside the
bounds is undefined behaviour, in debug builds also. -/
structure Strict (α : Type) (w : Nat) where
  elems : List α
deriving DecidableEq

instance {α : Type} {w : Nat} : SIMDSized (Strict α w) where
  scalarLen _ s := ok s.elems.length

instance {α : Type} {w : Nat} : SIMDArray (Strict α w) α w where
  load _ s o := Packed.load s.elems o
  loadUnchecked _ s o := if h : o + w ≤ s.elems.length then ok (windowAt s.elems o w h) else ub
  loadScalar _ s i := index s.elems i
  loadScalarUnchecked _ s i := getUnchecked s.elems i

instance {α : Type} {w : Nat} : SIMDArrayMut (Strict α w) α w where
  store _ s v o := if o + w ≤ s.elems.length then ok ⟨splice s.elems o v.toList⟩ else panic
  storeUnchecked _ s v o := if o + w ≤ s.elems.length then ok ⟨splice s.elems o v.toList⟩ else ub
  storeScalar _ s x i := do ok ⟨← indexSet s.elems i x⟩
  storeScalarUnchecked _ s x i := do ok ⟨← setUnchecked s.elems i x⟩

section
variable {α : Type} {w : Nat}

theorem agrees_slice (c : Cfg) (l : List α) : Agrees c (⟨l⟩ : Slice α w) l where
  toRepresents := represents_slice c l
  load _ := rfl
  loadScalar _ := rfl

theorem agrees_strict (c : Cfg) (l : List α) : Agrees c (⟨l⟩ : Strict α w) l where
  scalarLen := rfl
  loadUnchecked o h := dif_pos h
  loadScalarUnchecked i h := by
    simp [SIMDArray.loadScalarUnchecked, getUnchecked, List.getElem?_eq_getElem h]
  load _ := rfl
  loadScalar _ := rfl

theorem mutRep_strict (c : Cfg) : MutRep c (Strict.mk : List α → Strict α w) where
  rep l := (agrees_strict c l).toRepresents
  store l v o h := by
    simp only [SIMDArrayMut.storeUnchecked]
    rw [if_pos h]
  storeScalar l x i h := by
    simp only [SIMDArrayMut.storeScalarUnchecked]
    rw [setUnchecked_ok h]
    rfl

/-- An iterator over a collection is a collection with the same contents. -/
theorem agrees_iter {A : Type} [SIMDSized A] [SIMDArray A α w] {c : Cfg} {a : A} {l : List α}
    (h : Agrees c a l) (p : Nat) (d : Vector α w) : Agrees c (⟨p, a, d⟩ : SIMDIter A α w) l where
  toRepresents := represents_iter h.toRepresents p d
  load := h.load
  loadScalar := h.loadScalar

end

section Any
variable {A α : Type} {w : Nat} [SIMDSized A] [SIMDArray A α w]

/-- The strict collection with the same contents. -/
abbrev StrictOf (l : List α) (a : A) (s : Strict α w) (b : A) : Prop := s = ⟨l⟩ ∧ b = a

/-- **C136**: what is defined on the strict collection is the same on every collection with these
contents. -/
theorem C136_contract {c : Cfg} {a : A} {l : List α} (h : Agrees c a l) :
    ArrBelow c (StrictOf (w := w) l a) where
  scalarLen := by
    rintro s b ⟨rfl, rfl⟩
    rw [h.scalarLen]
    exact .refl _
  load := by
    rintro s b ⟨rfl, rfl⟩ o
    rw [h.load]
    exact .refl _
  loadUnchecked := by
    rintro s b ⟨rfl, rfl⟩ o
    by_cases ho : o + w ≤ l.length
    · rw [h.loadUnchecked o ho, (agrees_strict c l).loadUnchecked o ho]
      exact .refl _
    · simp only [SIMDArray.loadUnchecked]
      rw [dif_neg ho]
      exact .ub _
  loadScalar := by
    rintro s b ⟨rfl, rfl⟩ o
    rw [h.loadScalar]
    exact .refl _
  loadScalarUnchecked := by
    rintro s b ⟨rfl, rfl⟩ i
    by_cases hi : i < l.length
    · rw [h.loadScalarUnchecked i hi, (agrees_strict c l).loadScalarUnchecked i hi]
      exact .refl _
    · simp only [SIMDArray.loadScalarUnchecked, getUnchecked,
        List.getElem?_eq_none (Nat.le_of_not_lt hi)]
      exact .ub _

/-- The iterator over the strict collection. -/
abbrev strictAt (l : List α) (d : Vector α w) (p : Nat) : SIMDIter (Strict α w) α w := ⟨p, ⟨l⟩, d⟩

/-- **C136**: a sequence of calls of any length on an iterator over any collection does what it does
on the strict collection with the same contents, unless it breaks the contract there. -/
theorem C136_calls {c : Cfg} {a : A} {l : List α} (h : Agrees c a l) (p : Nat) (d : Vector α w)
    (ops : List IterOp) :
    (∀ os q, runOps c (strictAt l d p) ops = ok (os, strictAt l d q) →
      runOps c (⟨p, a, d⟩ : SIMDIter A α w) ops = ok (os, ⟨q, a, d⟩)) ∧
    (runOps c (strictAt l d p) ops = panic →
      runOps c (⟨p, a, d⟩ : SIMDIter A α w) ops = panic) := by
  have hb := runOps_below (iterBelow_iter (α := α) (w := w) (C136_contract h))
    (arrBelow_iter (C136_contract h)) ops (i := strictAt l d p) (j := ⟨p, a, d⟩)
    ⟨rfl, rfl, rfl, rfl⟩
  constructor
  · intro os q e
    rw [e] at hb
    obtain ⟨⟨os', i'⟩, e', h1, h2, h3, -, h4⟩ := hb.of_ok
    obtain ⟨q', b, d'⟩ := i'
    dsimp only at h1 h2 h3 h4
    subst h1 h2 h3 h4
    exact e'
  · intro e
    rw [e] at hb
    exact hb.of_panic

end Any

/-! ### Which calls break the contract -/

section Exact
variable {α : Type} {w : Nat}

/-- The calls which use an unchecked method outside its contract: in a release build, `end` inside
a collection of at most one vector, not at its start (as for slices, C75), and `next` where
`position + width` wraps around to a number inside the bounds. -/
def BreaksContract (c : Cfg) (n w : Nat) (op : IterOp) (p : Nat) : Prop :=
  c.debug = false ∧ (op = .end_ ∧ 0 < p ∧ p < n ∧ n ≤ w ∨
    op = .next ∧ c.usize ≤ p + w ∧ p + w - c.usize ≤ n)

theorem next_any {A : Type} [SIMDSized A] [SIMDArray A α w] {c : Cfg} {a : A} {l : List α}
    (hr : Represents c a l) (d : Vector α w) (p : Nat) (hlen : l.length + w < c.usize)
    (hp : p < c.usize) :
    next c (⟨p, a, d⟩ : SIMDIter A α w) =
      if h : p + w ≤ l.length then ok (some (windowAt l p w h), ⟨p + w, a, d⟩)
      else if p + w < c.usize then ok (none, ⟨p, a, d⟩)
      else if c.debug then panic
      else if p + w - c.usize ≤ l.length then (do
        let v ← SIMDArray.loadUnchecked c a p
        ok (some v, ⟨p + w - c.usize, a, d⟩))
      else ok (none, ⟨p, a, d⟩) := by
  by_cases h1 : p + w ≤ l.length
  · rw [dif_pos h1, simdIter_next_some hr h1 (by omega)]
  · rw [dif_neg h1]
    by_cases h2 : p + w < c.usize
    · rw [if_pos h2, simdIter_next_none hr (by omega) h2]
    · rw [if_neg h2]
      simp only [SIMDIterable.next, SIMDIter.next, uadd, if_neg h2]
      cases hd : c.debug with
      | true => simp
      | false =>
        have hm : (p + w) % c.usize = p + w - c.usize := by
          rw [Nat.mod_eq_sub_mod (by omega), Nat.mod_eq_of_lt (by omega)]
        simp only [Bool.false_eq_true, if_false, ok_bind, SIMDSized.scalarLen, hr.scalarLen, hm]
        by_cases h3 : p + w - c.usize ≤ l.length
        · rw [if_pos h3, if_pos h3]
          simp only [SIMDArray.loadUnchecked, SIMDIter.advance, uadd, if_neg h2, hd, hm]
          simp
        · rw [if_neg h3, if_neg h3]

/-- One call on the strict collection, compared with the slice. -/
theorem strict_step (c : Cfg) (l : List α) (d : Vector α w) (p : Nat)
    (hlen : l.length + w < c.usize) (hp : p < c.usize) (op : IterOp) :
    (op.step c (strictAt l d p) = ub ∧ BreaksContract c l.length w op p) ∨
    (¬ BreaksContract c l.length w op p ∧
      op.step c (strictAt l d p) = (op.step c (iterAt l d p) >>= fun x =>
        ok (x.1, strictAt l d x.2.position))) := by
  have hs := (agrees_strict (w := w) c l).toRepresents
  have hsl := represents_slice (w := w) c l
  cases op with
  | next =>
    simp only [IterOp.step]
    rw [next_any hs d p hlen hp, next_any hsl d p hlen hp]
    by_cases h1 : p + w ≤ l.length
    · refine .inr ⟨?_, ?_⟩
      · rintro ⟨-, ⟨h, -⟩ | ⟨-, h, -⟩⟩
        · cases h
        · omega
      · rw [dif_pos h1, dif_pos h1]; rfl
    · rw [dif_neg h1, dif_neg h1]
      by_cases h2 : p + w < c.usize
      · refine .inr ⟨?_, ?_⟩
        · rintro ⟨-, ⟨h, -⟩ | ⟨-, h, -⟩⟩
          · cases h
          · omega
        · rw [if_pos h2, if_pos h2]; rfl
      · rw [if_neg h2, if_neg h2]
        cases hd : c.debug with
        | true => exact .inr ⟨by simp [BreaksContract, hd], rfl⟩
        | false =>
          simp only [Bool.false_eq_true, if_false]
          by_cases h3 : p + w - c.usize ≤ l.length
          · refine .inl ⟨?_, hd, .inr ⟨rfl, by omega, h3⟩⟩
            rw [if_pos h3]
            simp only [SIMDArray.loadUnchecked]
            rw [dif_neg h1]
            rfl
          · refine .inr ⟨?_, ?_⟩
            · rintro ⟨-, ⟨h, -⟩ | ⟨-, -, h⟩⟩
              · cases h
              · omega
            · rw [if_neg h3, if_neg h3]; rfl
  | end_ =>
    simp only [IterOp.step]
    rw [simdIter_end_exact hs p d hlen, simdIter_end_exact hsl p d hlen]
    by_cases h1 : l.length ≤ p
    · refine .inr ⟨?_, by rw [if_pos h1, if_pos h1]; rfl⟩
      rintro ⟨-, ⟨-, h⟩ | ⟨h, -⟩⟩
      · omega
      · cases h
    · rw [if_neg h1, if_neg h1]
      by_cases h2 : w < l.length - p
      · refine .inr ⟨?_, by rw [if_pos h2, if_pos h2]; rfl⟩
        rintro ⟨-, ⟨-, h⟩ | ⟨h, -⟩⟩
        · omega
        · cases h
      · rw [if_neg h2, if_neg h2]
        by_cases h3 : 0 < p ∧ l.length ≤ w
        · rw [if_pos h3, if_pos h3]
          cases hd : c.debug with
          | true => exact .inr ⟨by simp [BreaksContract, hd], by simp [badAccess, hd]⟩
          | false =>
            exact .inl ⟨by simp [badAccess, hd], hd, .inl ⟨rfl, h3.1, by omega, h3.2⟩⟩
        · refine .inr ⟨?_, by rw [if_neg h3, if_neg h3]; rfl⟩
          rintro ⟨-, ⟨-, h⟩ | ⟨h, -⟩⟩
          · exact h3 ⟨h.1, h.2.2⟩
          · cases h
  | scalar =>
    refine .inr ⟨by simp [BreaksContract], ?_⟩
    simp only [IterOp.step, unpack, Unpacked.next, SIMDIterable.scalarPos, SIMDSized.scalarLen,
      ok_bind]
    by_cases h : p < l.length
    · rw [if_pos h, if_pos h, (represents_iter hs p d).loadScalarUnchecked p h,
        (represents_iter hsl p d).loadScalarUnchecked p h]
      simp only [ok_bind, SIMDIterable.advance, SIMDIter.advance]
      rw [uadd_ok (by omega)]
      rfl
    · rw [if_neg h, if_neg h]; rfl
  | advance k =>
    refine .inr ⟨by simp [BreaksContract], ?_⟩
    simp only [IterOp.step, SIMDIterable.advance, SIMDIter.advance]
    cases uadd c p k <;> rfl
  | finalize =>
    refine .inr ⟨by simp [BreaksContract], ?_⟩
    simp only [IterOp.step, finalize, SIMDSized.scalarLen, SIMDIterable.scalarPos, ok_bind,
      SIMDIterable.advance, SIMDIter.advance]
    cases usub c l.length p with
    | ok k => simp only [ok_bind]; cases uadd c p k <;> rfl
    | _ => rfl
  | len =>
    refine .inr ⟨by simp [BreaksContract], ?_⟩
    simp only [IterOp.step, SIMDIterable.len, SIMDSized.scalarLen, ok_bind]
    cases udiv l.length w <;> rfl
  | scalarPos => exact .inr ⟨by simp [BreaksContract], rfl⟩
  | scalarLen => exact .inr ⟨by simp [BreaksContract], rfl⟩
  | vectorLen =>
    refine .inr ⟨by simp [BreaksContract], ?_⟩
    simp only [IterOp.step, SIMDIterable.vecLen, SIMDSized.scalarLen, ok_bind]
    cases udiv l.length w <;> rfl
  | vectorPos =>
    refine .inr ⟨by simp [BreaksContract], ?_⟩
    simp only [IterOp.step, SIMDIterable.vectorPos, ok_bind]
    cases udiv p w <;> rfl
  | load o =>
    refine .inr ⟨by simp [BreaksContract], ?_⟩
    simp only [IterOp.step, SIMDArray.load]
    cases (Packed.load l o : Res (Vector α w)) <;> rfl
  | loadScalar o =>
    refine .inr ⟨by simp [BreaksContract], ?_⟩
    simp only [IterOp.step, SIMDArray.loadScalar]
    cases index l o <;> rfl

/-- The position after a call which returns. -/
theorem step_position (c : Cfg) (l : List α) (d : Vector α w) (p : Nat)
    (hlen : l.length + w < c.usize) (hp : p < c.usize) (op : IterOp) (o : IterOut α w)
    (it : SIMDIter (Slice α w) α w) (h : op.step c (iterAt l d p) = ok (o, it)) :
    ∃ q, it = iterAt l d q ∧ q < c.usize := by
  rcases step_spec c l d p hlen hp op with ⟨h1, -⟩ | ⟨-, h1 | ⟨o', q, h1, hq, -⟩⟩
  · rw [h1] at h; cases h
  · rw [h1] at h; cases h
  · rw [h1] at h
    simp only [ok.injEq, Prod.mk.injEq] at h
    exact ⟨q, h.2.symm, hq⟩

/-- **C136**, exactly: a sequence of calls on an iterator over the strict collection breaks the
contract if and only if one of its calls is one of `BreaksContract` at the position reached before. -/
theorem C136_exact (c : Cfg) (l : List α) (d : Vector α w) (hlen : l.length + w < c.usize) :
    ∀ (ops : List IterOp) (p : Nat), p < c.usize →
    (runOps c (strictAt l d p) ops = ub ↔
      ∃ pre op post os q, ops = pre ++ op :: post ∧
        runOps c (strictAt l d p) pre = ok (os, strictAt l d q) ∧
        BreaksContract c l.length w op q) := by
  intro ops
  induction ops with
  | nil =>
    intro p _
    constructor
    · intro h; cases h
    · rintro ⟨pre, op, post, os, q, h, -⟩
      simp at h
  | cons op ops ih =>
    intro p hp
    rcases strict_step c l d p hlen hp op with ⟨h1, h2⟩ | ⟨hb, h1⟩
    · constructor
      · intro _
        exact ⟨[], op, ops, [], p, rfl, rfl, h2⟩
      · intro _
        simp only [runOps, h1, ub_bind]
    · have hnil : ∀ {os q}, runOps c (strictAt l d p) [] = ok (os, strictAt l d q) → q = p := by
        intro os q h
        simp only [runOps, ok.injEq, Prod.mk.injEq, SIMDIter.mk.injEq] at h
        exact h.2.1.symm
      cases hs : op.step c (iterAt l d p) with
      | ok x =>
        obtain ⟨o, it⟩ := x
        obtain ⟨q1, rfl, hq1⟩ := step_position c l d p hlen hp op o it hs
        rw [hs] at h1
        simp only [ok_bind] at h1
        have e : runOps c (strictAt l d p) (op :: ops) = ub ↔
            runOps c (strictAt l d q1) ops = ub := by
          simp only [runOps, h1, ok_bind]
          cases runOps c (strictAt l d q1) ops <;> simp
        rw [e, ih q1 hq1]
        constructor
        · rintro ⟨pre, op', post, os, q, h3, h4, h5⟩
          exact ⟨op :: pre, op', post, o :: os, q, by rw [h3]; rfl,
            by simp only [runOps, h1, h4, ok_bind], h5⟩
        · rintro ⟨pre, op', post, os, q, h3, h4, h5⟩
          cases pre with
          | nil =>
            rw [hnil h4] at h5
            simp only [List.nil_append, List.cons.injEq] at h3
            rw [← h3.1] at h5
            exact absurd h5 hb
          | cons op2 pre =>
            simp only [List.cons_append, List.cons.injEq] at h3
            obtain ⟨rfl, h3⟩ := h3
            simp only [runOps, h1, ok_bind] at h4
            cases h10 : runOps c (strictAt l d q1) pre with
            | ok r =>
              rw [h10] at h4
              simp only [ok_bind, ok.injEq, Prod.mk.injEq] at h4
              exact ⟨pre, op', post, r.1, q, h3, by rw [h10, ← h4.2], h5⟩
            | _ => rw [h10] at h4; cases h4
      | ub =>
        rcases step_spec c l d p hlen hp op with ⟨-, h2⟩ | ⟨-, h2 | ⟨o', q, h2, -⟩⟩
        · exact absurd ⟨h2.1, .inl h2.2⟩ hb
        · rw [h2] at hs; cases hs
        · rw [h2] at hs; cases hs
      | panic =>
        rw [hs] at h1
        constructor
        · intro h
          simp only [runOps, h1, panic_bind] at h
          cases h
        · rintro ⟨pre, op', post, os, q, h3, h4, h5⟩
          cases pre with
          | nil =>
            rw [hnil h4] at h5
            simp only [List.nil_append, List.cons.injEq] at h3
            rw [← h3.1] at h5
            exact absurd h5 hb
          | cons op2 pre =>
            simp only [List.cons_append, List.cons.injEq] at h3
            obtain ⟨rfl, h3⟩ := h3
            simp only [runOps, h1, panic_bind] at h4
            cases h4
      | hang =>
        rcases step_spec c l d p hlen hp op with ⟨h2, -⟩ | ⟨-, h2 | ⟨o', q, h2, -⟩⟩ <;>
          · rw [h2] at hs; cases hs

/-- Without a call which breaks the contract, the strict collection is like a slice. -/
theorem strict_runOps (c : Cfg) (l : List α) (d : Vector α w) (hlen : l.length + w < c.usize) :
    ∀ (ops : List IterOp) (p : Nat), p < c.usize → runOps c (strictAt l d p) ops ≠ ub →
    runOps c (strictAt l d p) ops = (runOps c (iterAt l d p) ops >>= fun x =>
      ok (x.1, strictAt l d x.2.position)) := by
  intro ops
  induction ops with
  | nil => exact fun _ _ _ => rfl
  | cons op ops ih =>
    intro p hp hne
    rcases strict_step c l d p hlen hp op with ⟨h1, -⟩ | ⟨-, h1⟩
    · simp only [runOps, h1, ub_bind, ne_eq, not_true] at hne
    · simp only [runOps, h1] at hne ⊢
      cases hs : op.step c (iterAt l d p) with
      | ok x =>
        obtain ⟨o, it⟩ := x
        obtain ⟨q, rfl, hq⟩ := step_position c l d p hlen hp op o it hs
        rw [hs] at hne
        simp only [ok_bind] at hne ⊢
        rw [ih q hq (by intro h; rw [h] at hne; exact hne rfl)]
        cases runOps c (iterAt l d q) ops <;> rfl
      | _ => rfl

end Exact

/-! ### Collections of any kind are like slices -/

section Like
variable {A α : Type} {w : Nat} [SIMDSized A] [SIMDArray A α w]

/-- **C136**, the part which holds: unless the contract is broken, every sequence of calls on an
iterator over any collection returns what it returns on an iterator over a slice with the same
contents. Missing: `C136_false`. -/
theorem C136_like_slice_partial {c : Cfg} {a : A} {l : List α} (h : Agrees c a l) (p : Nat)
    (d : Vector α w) (ops : List IterOp) (hlen : l.length + w < c.usize) (hp : p < c.usize)
    (hok : c.debug = true ∨
      (∀ pre post os q, ops = pre ++ .next :: post →
        runOps c (strictAt l d p) pre = ok (os, strictAt l d q) → q + w < c.usize) ∧
      (w < l.length ∨ .end_ ∉ ops)) :
    runOps c (⟨p, a, d⟩ : SIMDIter A α w) ops = (runOps c (iterAt l d p) ops >>= fun x =>
      ok (x.1, ⟨x.2.position, a, d⟩)) := by
  have hne : runOps c (strictAt l d p) ops ≠ ub := by
    rw [ne_eq, C136_exact c l d hlen ops p hp]
    rintro ⟨pre, op, post, os, q, h1, h2, h3, h4⟩
    rcases hok with hd | ⟨hn, he⟩
    · rw [h3] at hd; cases hd
    · rcases h4 with ⟨rfl, -, -, h5⟩ | ⟨rfl, h5, -⟩
      · rcases he with he | he
        · omega
        · exact he (by rw [h1]; simp)
      · have := hn pre post os q h1 h2
        omega
  have hs := strict_runOps c l d hlen ops p hp hne
  have hc := C136_calls h p d ops
  cases hr : runOps c (iterAt l d p) ops with
  | ok x =>
    rw [hr] at hs
    exact hc.1 _ _ hs
  | panic =>
    rw [hr] at hs
    exact hc.2 hs
  | ub =>
    rw [hr] at hs
    exact absurd hs hne
  | hang =>
    have hnh : ∀ (ops : List IterOp) (p : Nat), p < c.usize →
        runOps c (iterAt l d p) ops ≠ hang := by
      intro ops
      induction ops with
      | nil => intro p _ h; cases h
      | cons op ops ih =>
        intro p hp h
        simp only [runOps] at h
        rcases step_spec c l d p hlen hp op with ⟨h2, -⟩ | ⟨-, h2 | ⟨o', q, h2, hq, -⟩⟩
        · rw [h2] at h; cases h
        · rw [h2] at h; cases h
        · rw [h2] at h
          simp only [ok_bind] at h
          cases h3 : runOps c (iterAt l d q) ops with
          | hang => exact ih q hq h3
          | _ => rw [h3] at h; cases h
    exact absurd hr (hnh ops p hp)

/-- **C136** is false without the condition: in a release build, safe calls on an iterator over a
collection which keeps to the contract read outside of it where an iterator over a slice panics. -/
theorem C136_false :
    runOps release64 (strictAt (w := 2) [1#8, 2, 3] #v[0, 0] 0) [.advance (2 ^ 64 - 1), .next] = ub ∧
    runOps release64 (iterAt (w := 2) [1#8, 2, 3] #v[0, 0] 0) [.advance (2 ^ 64 - 1), .next] =
      panic := by
  constructor <;> decide +kernel

/-! ### Passes over collections of any kind -/

/-- **C136**: `simd_do_each` over any collection. -/
theorem C136_do_each {σ : Type} {c : Cfg} {a : A} {l : List α} (h : Represents c a l) (fuel : Nat)
    (d : Vector α w) (st : σ) (f : FnMut σ (Vector α w) Unit) (hw : 0 < w)
    (hlen : l.length + w < c.usize) (hfuel : l.length / w < fuel) :
    simdDoEach c fuel (⟨0, a, d⟩ : SIMDIter A α w) st f = (do
      let (_, st') ← callAll f st (calls w d l)
      ok (⟨l.length, a, d⟩, st')) :=
  (simdIter_driver h d hw hlen).do_each fuel st f hw hfuel

/-- **C136**: `simd_reduce` over any collection. -/
theorem C136_reduce {B σ : Type} {c : Cfg} {a : A} {l : List α} (h : Represents c a l) (fuel : Nat)
    (d : Vector α w) (start : B) (st : σ) (f : σ → B → Vector α w → Res (B × σ)) (hw : 0 < w)
    (hlen : l.length + w < c.usize) (hfuel : l.length / w < fuel) :
    simdReduce c fuel (⟨0, a, d⟩ : SIMDIter A α w) start st f = (do
      let (acc, st') ← (calls w d l).foldlM (fun (acc, st) v => f st acc v) (start, st)
      ok (⟨l.length, a, d⟩, acc, st')) :=
  (simdIter_driver h d hw hlen).reduce fuel start st f hw hfuel

/-- **C136**: `simd_map` and `scalar_collect` over any collection, with any closure. -/
theorem C136_collect [Packable α] {β σ : Type} [Packable β] {w' : Nat} {c : Cfg} {a : A}
    {l : List α} (h : Represents c a l) (fuel : Nat) (d : Vector α w) (st : σ)
    (f : FnMut σ (Vector α w) (Vector β w')) (hw : 0 < w) (hw' : 0 < w') (hs : 0 < Packable.size β)
    (hsize : w * Packable.size α = w' * Packable.size β) (hlen : l.length + w < c.usize)
    (hlen' : (l.length / w + 1) * w' < c.usize) (hvec : w * Packable.size α < c.usize)
    (hfuel : l.length / w < fuel) :
    scalarCollect c fuel (simdMap (⟨0, a, d⟩ : SIMDIter A α w) st f) = (do
      let (outs, st') ← callAll f st (calls w d l)
      ok (⟨⟨l.length, a, d⟩, st', f⟩,
        (unpad ((w - l.length % w) % w * Packable.size α / Packable.size β) outs).map some)) :=
  (simdIter_driver h d hw hlen).collect_map fuel st f hw hw' hs hsize hlen' hvec hfuel

/-- **C136**: a strided iterator over any collection, `simd_do_each`. -/
theorem C136_stride [Packable α] {σ : Type} {c : Cfg} {a : A} {l : List α} (h : Represents c a l)
    (fuel : Nat) {s k : Nat} (hk : k < s) (d : Vector α w) (st : σ) (f : FnMut σ (Vector α w) Unit)
    (hw : 0 < w) (hu : l.length + s * (w + 1) < c.usize) (hfuel : l.length / s / w < fuel) :
    simdDoEach c fuel (strideAt a s k d) st f = (do
      let (_, st') ← callAll f st (calls w d (strided s k l hk))
      ok (⟨a, k + s * (l.length / s), k, s, d⟩, st')) := by
  have := (stride_driver h hk d hw hu).do_each fuel st f hw (by rwa [strided_length])
  simp only [Nat.mul_zero, Nat.add_zero, strided_length] at this
  exact this

end Like

/-! ### Zips, other views and consumers -/

section Views
variable {A B α β : Type} {w : Nat} [SIMDSized A] [SIMDArray A α w] [SIMDSized B] [SIMDArray B β w]

/-- **C136**: `(a, b).zip().simd_do_each(…)` over collections of two kinds; the closure gets the
vectors of both, at the same indices. -/
theorem C136_zip_do_each {σ : Type} [Packable α] {c : Cfg} {a : A} {b : B} {rows : List (α × β)}
    (ha : Represents c a (rows.map Prod.fst)) (hb : Represents c b (rows.map Prod.snd))
    (d : Vector α w) (d' : Vector β w) (fuel : Nat) (st : σ)
    (f : FnMut σ (Vector α w × Vector β w × Unit) Unit) (hw : 0 < w)
    (hu : rows.length + w < c.usize) (hfuel : rows.length / w < fuel) :
    (do
      let z ← zip c (⟨0, a, d⟩ : SIMDIter A α w) ((⟨0, b, d'⟩ : SIMDIter B β w), ())
      zsimdDoEach c fuel z st f) = (do
      let (_, st') ← callAll f st
        ((calls w (Vector.zip d d') rows).map fun v => (v.map Prod.fst, v.map Prod.snd, ()))
      ok (⟨⟨rows.length, a, d⟩, (⟨0, b, d'⟩, ())⟩, st')) := by
  let dv : Vector (α × β × Unit) w := Vector.ofFn fun i => (d[i], d'[i], ())
  have e1 : dv.map Prod.fst = d := by ext i hi; simp [dv]
  have e2 : (dv.map Prod.snd).map Prod.fst = d' := by ext i hi; simp [dv]
  let rows' : List (α × β × Unit) := rows.map fun r => (r.1, r.2, ())
  have l1 : rows'.map Prod.fst = rows.map Prod.fst := by simp [rows']
  have l2 : (rows'.map Prod.snd).map Prod.fst = rows.map Prod.snd := by simp [rows']
  have hl : rows'.length = rows.length := by simp [rows']
  have hd := simdIter_driver ha d hw (by simpa using hu)
  rw [← l1, ← e1] at hd
  have hr : LawfulRest.Rep (w := w) c ((⟨0, b, d'⟩ : SIMDIter B β w), ()) (rows'.map Prod.snd)
      (dv.map Prod.snd) := by
    refine ⟨⟨?_, ?_, ?_⟩, trivial⟩
    · rw [l2]; exact represents_iter hb 0 d'
    · rw [e2]; rfl
    · rw [l2]; exact (simdIter_driver hb d' hw (by simpa using hu)).len 0
  have := zip_do_each hd hw hr (by omega) fuel st f (by rwa [hl])
  rw [e1, hl] at this
  rw [this]
  congr 2
  have hm : calls w (Vector.zip d d') rows = (calls w dv rows').map
      (Vector.map fun r => (r.1, r.2.1)) := by
    have e3 : Vector.zip d d' = dv.map fun r => (r.1, r.2.1) := by ext i hi <;> simp [dv]
    have e4 : rows = rows'.map fun r => (r.1, r.2.1) := by simp [rows', Function.comp_def]
    rw [e3]
    conv => lhs; rw [e4]
    exact calls_map hw _ _ _
  rw [hm, List.map_map]
  apply List.map_congr_left
  intro v _
  simp [packRow, LawfulRest.pack, Vector.map_map, Function.comp_def]

end Views

section Consumers
variable {I J α : Type} {w : Nat} [SIMDSized I] [SIMDIterator I α w] [SIMDSized J]
  [SIMDIterator J α w] [Packable α] {c : Cfg} {R : I → J → Prop}

/-- **C136**: every consumer, run on an iterator whose operations are defined at most where those of
another are and agree with them there, is defined at most where it is on the other and agrees
there. -/
theorem C136_consumers {B σ : Type} (h : IterBelow (α := α) (w := w) c R) {i : I} {j : J} (r : R i j)
    (fuel : Nat) (start : B) (st : σ) (f : σ → B → Vector α w → Res (B × σ))
    (g : FnMut σ (Vector α w) Unit) (fill : List α) :
    Below (StRel R) (simdReduce c fuel i start st f) (simdReduce c fuel j start st f) ∧
    Below (StRel R) (simdDoEach c fuel i st g) (simdDoEach c fuel j st g) ∧
    Below (StRel R) (scalarFill c fuel i fill) (scalarFill c fuel j fill) ∧
    Below (StRel R) (scalarCollect c fuel i) (scalarCollect c fuel j) ∧
    Below (StRel R) (scalarFillAllCells c id fuel i fill) (scalarFillAllCells c id fuel j fill) ∧
    Below (StRel R) (scalarCollectAll c fuel i) (scalarCollectAll c fuel j) :=
  ⟨simdReduce_below h fuel start st f r, simdDoEach_below h fuel st g r,
    scalarFill_below h fuel fill r, scalarCollect_below h fuel r,
    scalarFillAllCells_below h id fuel fill r, scalarCollectAll_below h fuel r⟩

end Consumers

section Towers
variable {A B α : Type} {w : Nat} [SIMDSized A] [SIMDArray A α w] [SIMDSized B] [SIMDArray B α w]
  [Packable α] {c : Cfg} {R : A → B → Prop}

/-- **C136**: every view preserves this: iterators and strides, which are again collections, their
maps, zips, strided zips and maps of zips. -/
theorem C136_views {σ β : Type} [Packable β] {w' : Nat} (h : ArrBelow (α := α) (w := w) c R) :
    (IterBelow c (IterRel (α := α) (w := w) R) ∧ ArrBelow c (IterRel (α := α) (w := w) R)) ∧
    (IterBelow c (StrideRel (α := α) (w := w) R) ∧ ArrBelow c (StrideRel (α := α) (w := w) R)) ∧
    IterBelow c (MapRel (σ := σ) (α := α) (w := w) (β := β) (w' := w')
      (IterRel (α := α) (w := w) R)) ∧
    IterBelow c (MapRel (σ := σ) (α := α) (w := w) (β := β) (w' := w')
      (StrideRel (α := α) (w := w) R)) ∧
    ZipBelow c (StrideZipRel (α := α) (w := w) (IterRel (α := α) (w := w) R)) ∧
    IterBelow c (ZipMapRel (σ := σ) (γ := Vector α w × Vector α w) (β := β) (w' := w')
      (StrideZipRel (α := α) (w := w) (IterRel (α := α) (w := w) R))) :=
  ⟨⟨iterBelow_iter h, arrBelow_iter h⟩, ⟨iterBelow_stride h, arrBelow_stride h⟩,
    iterBelow_map (iterBelow_iter h), iterBelow_map (iterBelow_stride h),
    zipBelow_strideZip (iterBelow_iter h), iterBelow_zipMap (zipBelow_strideZip (iterBelow_iter h))⟩

end Towers

/-! ### Mutable collections -/

section Mut
variable {A α : Type} {w : Nat} [SIMDSized A] [SIMDArray A α w] [SIMDArrayMut A α w]

/-- `has a l`: the mutable collection `a` has the contents `l`; unchecked stores inside the bounds
replace elements. -/
structure AgreesMut (c : Cfg) (has : A → List α → Prop) : Prop where
  agrees : ∀ {a l}, has a l → Agrees c a l
  store : ∀ {a l}, has a l → ∀ (v : Vector α w) (o : Nat), o + w ≤ l.length →
    ∃ a', SIMDArrayMut.storeUnchecked c a v o = ok a' ∧ has a' (splice l o v.toList)
  storeScalar : ∀ {a l}, has a l → ∀ (x : α) (i : Nat), i < l.length →
    ∃ a', SIMDArrayMut.storeScalarUnchecked c a x i = ok a' ∧ has a' (l.set i x)

theorem agreesMut_below {c : Cfg} {has : A → List α → Prop} (h : AgreesMut c has) :
    ArrBelow c (fun (s : Strict α w) a => has a s.elems) ∧
    StoreBelow c (fun (s : Strict α w) a => has a s.elems) := by
  refine ⟨⟨?_, ?_, ?_, ?_, ?_⟩, ⟨?_, ?_⟩⟩
  · rintro ⟨l⟩ a hl
    exact (C136_contract (h.agrees hl)).scalarLen ⟨rfl, rfl⟩
  · rintro ⟨l⟩ a hl
    exact (C136_contract (h.agrees hl)).load ⟨rfl, rfl⟩
  · rintro ⟨l⟩ a hl
    exact (C136_contract (h.agrees hl)).loadUnchecked ⟨rfl, rfl⟩
  · rintro ⟨l⟩ a hl
    exact (C136_contract (h.agrees hl)).loadScalar ⟨rfl, rfl⟩
  · rintro ⟨l⟩ a hl
    exact (C136_contract (h.agrees hl)).loadScalarUnchecked ⟨rfl, rfl⟩
  · rintro ⟨l⟩ a hl v o
    dsimp only at hl
    simp only [SIMDArrayMut.storeUnchecked]
    by_cases ho : o + w ≤ l.length
    · obtain ⟨a', e, h'⟩ := h.store hl v o ho
      rw [if_pos ho, e]
      exact .ok h'
    · rw [if_neg ho]; exact .ub _
  · rintro ⟨l⟩ a hl x i
    dsimp only at hl
    by_cases hi : i < l.length
    · obtain ⟨a', e, h'⟩ := h.storeScalar hl x i hi
      rw [e]
      have e2 : SIMDArrayMut.storeScalarUnchecked c (⟨l⟩ : Strict α w) x i = ok ⟨l.set i x⟩ :=
        (mutRep_strict c).storeScalar l x i hi
      rw [e2]
      exact .ok h'
    · simp only [SIMDArrayMut.storeScalarUnchecked, setUnchecked]
      rw [if_neg hi]; exact .ub _

/-- **C136**: `simd_for_each` over any mutable collection: if the closure returns from all calls, the
collection has the results in place of its elements. -/
theorem C136_for_each {σ : Type} [Packable α] {c : Cfg} {has : A → List α → Prop}
    (h : AgreesMut c has) {a : A} {l : List α} (hl : has a l) (fuel : Nat) (d : Vector α w)
    (st st' : σ) (f : FnMut σ (Vector α w) (Vector α w)) (us : List (Vector α w)) (hw : 0 < w)
    (hlen : l.length + w < c.usize) (hfuel : l.length / w < fuel)
    (hf : callAll f st (calls w d l) = ok (us, st')) :
    ∃ a', simdForEach c fuel st f (⟨0, a, d⟩ : SIMDIter A α w) = (ok st', ⟨l.length, a', d⟩) ∧
      has a' (unpad ((w - l.length % w) % w) us) := by
  obtain ⟨p', e, hp, -⟩ := simdForEach_any (mutRep_strict (α := α) (w := w) c) f d hw fuel l 0 st
    hlen (by omega) hfuel (Or.inl rfl)
  rw [List.drop_zero, mapRun_of_callAll f st st' _ us hf] at e hp
  have hp' := hp st' rfl
  simp only [forEachData, List.take_zero, List.nil_append, Nat.sub_zero] at e
  obtain ⟨h1, h2⟩ := agreesMut_below h
  have hb := simdForEach_below h1 h2 fuel st f ⟨0, ⟨l⟩, d⟩ ⟨0, a, d⟩ ⟨rfl, rfl, hl⟩
  rw [e] at hb
  generalize simdForEach c fuel st f (⟨0, a, d⟩ : SIMDIter A α w) = r at hb ⊢
  cases hb with
  | ok e r =>
    rename_i y t
    obtain ⟨q, a', d'⟩ := t
    obtain ⟨rfl, rfl, r⟩ := r
    refine ⟨a', ?_, r⟩
    rw [e, hp']
    simp

/-- **C136**: if the closure panics in call `k`, the results of the calls before are stored and the
rest of the collection is as it was, whatever the collection. -/
theorem C136_for_each_panic {σ : Type} [Packable α] {c : Cfg} {has : A → List α → Prop}
    (h : AgreesMut c has) {a : A} {l : List α} (hl : has a l) (fuel : Nat) (d : Vector α w)
    (st st' : σ) (f : FnMut σ (Vector α w) (Vector α w)) (us : List (Vector α w)) (k : Nat)
    (v : Vector α w) (hw : 0 < w) (hlen : l.length + w < c.usize) (hfuel : l.length / w < fuel)
    (hk : (calls w d l)[k]? = some v) (hf : callAll f st ((calls w d l).take k) = ok (us, st'))
    (hp : f st' v = panic) :
    ∃ a', simdForEach c fuel st f (⟨0, a, d⟩ : SIMDIter A α w) =
        (panic, ⟨min ((k + 1) * w) l.length, a', d⟩) ∧
      has a' (lanes us ++ l.drop (k * w)) := by
  obtain ⟨p', e, -, hq⟩ := simdForEach_any (mutRep_strict (α := α) (w := w) c) f d hw fuel l 0 st
    hlen (by omega) hfuel (Or.inl rfl)
  have hs := C12_for_each_panic c fuel l d st st' f us k v hw hlen hfuel hk hf hp
  obtain ⟨p2, e2, -, hq2⟩ := simdForEach_run (c := c) f d hw fuel l 0 st hlen (by omega) hfuel
    (Or.inl rfl)
  replace e2 := hs.symm.trans e2
  simp only [Prod.mk.injEq, SIMDIter.mk.injEq, Slice.mk.injEq, and_true] at e2
  obtain ⟨e3, e4, e5⟩ := e2
  rw [← e5, ← e3] at e
  have hno : ∀ st', (mapRun f st (calls w d (l.drop 0))).2 ≠ ok st' := by
    rw [← e3]; intro st' h; cases h
  have hp' : p' = min ((k + 1) * w) l.length := by rw [hq hno, ← hq2 hno, e4]
  obtain ⟨h1, h2⟩ := agreesMut_below h
  have hb := simdForEach_below h1 h2 fuel st f ⟨0, ⟨l⟩, d⟩ ⟨0, a, d⟩ ⟨rfl, rfl, hl⟩
  rw [e] at hb
  generalize simdForEach c fuel st f (⟨0, a, d⟩ : SIMDIter A α w) = r at hb ⊢
  cases hb with
  | panic r =>
    rename_i t
    obtain ⟨q, a', d'⟩ := t
    obtain ⟨rfl, rfl, r⟩ := r
    exact ⟨a', by rw [hp'], r⟩

end Mut

/-! ### Collections which are not in memory -/

/-- A collection whose elements are computed, as a user might define it: its unchecked loads never
fail. -/
structure Computed (α : Type) (w : Nat) where
  len : Nat
  elem : Nat → α

instance {α : Type} {w : Nat} : SIMDSized (Computed α w) where
  scalarLen _ s := ok s.len

instance {α : Type} {w : Nat} : SIMDArray (Computed α w) α w where
  load _ s o := Packed.load ((List.range s.len).map s.elem) o
  loadUnchecked _ s o := ok (Vector.ofFn fun j => s.elem (o + j))
  loadScalar _ s i := if i < s.len then ok (s.elem i) else panic
  loadScalarUnchecked _ s i := ok (s.elem i)

/-- It keeps to the contract. -/
theorem agrees_computed {α : Type} {w : Nat} (c : Cfg) (s : Computed α w) :
    Agrees c s ((List.range s.len).map s.elem) where
  scalarLen := by simp [SIMDSized.scalarLen]
  loadUnchecked o h := by
    simp only [SIMDArray.loadUnchecked]
    congr 1
    ext j hj
    simp [windowAt]
  loadScalarUnchecked i h := by
    simp [SIMDArray.loadScalarUnchecked]
  load _ := rfl
  loadScalar i := by
    by_cases h : i < s.len
    · simp [SIMDArray.loadScalar, h, index]
    · simp [SIMDArray.loadScalar, h, index]

/-- The squares below 10², in vectors of four. -/
example : simdReduce release64 9 (⟨0, ⟨10, fun i => BitVec.ofNat 32 (i * i)⟩, Vector.replicate 4 0⟩ :
    SIMDIter (Computed (BitVec 32) 4) (BitVec 32) 4) (0#32) ()
      (fun _ acc v => ok (v.toList.foldl (· + ·) acc, ())) >>= (fun x => ok x.2.1) = ok 285#32 := by
  rw [C136_reduce (agrees_computed release64 _).toRepresents 9 _ _ _ _ (by decide) (by decide)
    (by decide)]
  decide +kernel

/-- The iterator over squares in a debug build: C136 for a sequence of calls. -/
example : ∃ it, runOps debug64 (⟨0, ⟨3, fun i => BitVec.ofNat 8 (i * i)⟩, #v[7, 7]⟩ :
    SIMDIter (Computed (BitVec 8) 2) (BitVec 8) 2) [.next, .end_, .next] =
      ok ([.vec (some #v[0, 1]), .tail (some (#v[7, 4], 1)), .vec none], it) := by
  rw [C136_like_slice_partial (agrees_computed debug64 _) 0 _ _ (by decide) (by decide) (.inl rfl)]
  have e : runOps debug64 (iterAt (w := 2) ((List.range 3).map fun i => BitVec.ofNat 8 (i * i))
      #v[7, 7] 0) [.next, .end_, .next] =
      ok ([.vec (some #v[0, 1]), .tail (some (#v[7, 4], 1)), .vec none],
        iterAt ((List.range 3).map fun i => BitVec.ofNat 8 (i * i)) #v[7, 7] 3) := by
    decide +kernel
  rw [e]
  exact ⟨_, rfl⟩

/-- A mutable collection which counts the stores it has seen. -/
structure Counted (α : Type) (w : Nat) where
  elems : List α
  stores : Nat

instance {α : Type} {w : Nat} : SIMDSized (Counted α w) where
  scalarLen _ s := ok s.elems.length

instance {α : Type} {w : Nat} : SIMDArray (Counted α w) α w where
  load c s o := SIMDArray.load c (⟨s.elems⟩ : Slice α w) o
  loadUnchecked c s o := SIMDArray.loadUnchecked c (⟨s.elems⟩ : Slice α w) o
  loadScalar c s o := SIMDArray.loadScalar c (⟨s.elems⟩ : Slice α w) o
  loadScalarUnchecked c s o := SIMDArray.loadScalarUnchecked c (⟨s.elems⟩ : Slice α w) o

instance {α : Type} {w : Nat} : SIMDArrayMut (Counted α w) α w where
  store c s v o := do
    ok ⟨(← SIMDArrayMut.store c (⟨s.elems⟩ : Slice α w) v o).elems, s.stores + 1⟩
  storeUnchecked c s v o := do
    ok ⟨(← SIMDArrayMut.storeUnchecked c (⟨s.elems⟩ : Slice α w) v o).elems, s.stores + 1⟩
  storeScalar c s x o := do
    ok ⟨(← SIMDArrayMut.storeScalar c (⟨s.elems⟩ : Slice α w) x o).elems, s.stores + 1⟩
  storeScalarUnchecked c s x o := do
    ok ⟨(← SIMDArrayMut.storeScalarUnchecked c (⟨s.elems⟩ : Slice α w) x o).elems, s.stores + 1⟩

theorem agreesMut_counted {α : Type} {w : Nat} (c : Cfg) :
    AgreesMut c (fun (s : Counted α w) l => s.elems = l) where
  agrees := by
    rintro ⟨l, n⟩ _ rfl
    exact ⟨⟨rfl, (represents_slice c l).loadUnchecked, (represents_slice c l).loadScalarUnchecked⟩,
      fun _ => rfl, fun _ => rfl⟩
  store := by
    rintro ⟨l, n⟩ _ rfl v o h
    refine ⟨⟨splice l o v.toList, n + 1⟩, ?_, rfl⟩
    have e := (mutRep_slice (α := α) (w := w) c).store l v o h
    simp only [SIMDArrayMut.storeUnchecked] at e ⊢
    rw [e]
    rfl
  storeScalar := by
    rintro ⟨l, n⟩ _ rfl x i h
    refine ⟨⟨l.set i x, n + 1⟩, ?_, rfl⟩
    have e := (mutRep_slice (α := α) (w := w) c).storeScalar l x i h
    simp only [SIMDArrayMut.storeScalarUnchecked] at e ⊢
    rw [e]
    rfl

example : ∃ a', simdForEach release64 9 () (pureFn (Vector.map (· * 3#16)))
    (⟨0, ⟨[1, 2, 3, 4, 5], 0⟩, #v[0, 0]⟩ : SIMDIter (Counted (BitVec 16) 2) (BitVec 16) 2) =
      (ok (), ⟨5, a', #v[0, 0]⟩) ∧ a'.elems = [3, 6, 9, 12, 15] := by
  obtain ⟨a', h1, h2⟩ := C136_for_each (agreesMut_counted (α := BitVec 16) (w := 2) release64)
    (a := ⟨[1, 2, 3, 4, 5], 0⟩) rfl 9 #v[0, 0] () () (pureFn (Vector.map (· * 3#16)))
    [#v[3, 6], #v[9, 12], #v[0, 15]] (by decide) (by decide) (by decide) (by decide +kernel)
  exact ⟨a', h1, by rw [h2]; decide +kernel⟩

end Faster
