import Verif.Props.Trace
import Verif.Stride
import Verif.StrideZip
/-
Programs on two related collections: every method and every consumer uses a
collection only through the methods of its traits, so if each method of the one
collection which has defined behaviour does the same on the other, so do all
iterators over it and all consumers of these.
-/
namespace Faster
open Res SIMDSized SIMDIterable SIMDIterator

/-- The outcome on the left is undefined, or both are of the same kind with
related values. -/
inductive Below {X Y : Type} (Q : X → Y → Prop) : Res X → Res Y → Prop where
  | ub (r : Res Y) : Below Q ub r
  | ok {x : X} {y : Y} (h : Q x y) : Below Q (ok x) (ok y)
  | panic : Below Q panic panic
  | hang : Below Q hang hang

/-- The relation of results with an iterator: equal values, related iterators. -/
abbrev OutRel {O I J : Type} (R : I → J → Prop) (x : O × I) (y : O × J) : Prop :=
  x.1 = y.1 ∧ R x.2 y.2

/-- The relation of results with an iterator in front. -/
abbrev StRel {O I J : Type} (R : I → J → Prop) (x : I × O) (y : J × O) : Prop :=
  R x.1 y.1 ∧ x.2 = y.2

namespace Below
variable {X Y U V : Type} {Q : X → Y → Prop} {P : U → V → Prop}

theorem bind {r : Res X} {r' : Res Y} {k : X → Res U} {k' : Y → Res V} (h : Below Q r r')
    (hk : ∀ x y, Q x y → Below P (k x) (k' y)) : Below P (r >>= k) (r' >>= k') := by
  cases h with
  | ub => exact .ub _
  | ok h => exact hk _ _ h
  | panic => exact .panic
  | hang => exact .hang

theorem refl (r : Res X) : Below Eq r r := by
  cases r with
  | ok x => exact .ok rfl
  | panic => exact .panic
  | ub => exact .ub _
  | hang => exact .hang

/-- A step whose value is the same. -/
theorem same {r r' : Res X} {k : X → Res U} {k' : X → Res V} (h : Below Eq r r')
    (hk : ∀ x, Below P (k x) (k' x)) : Below P (r >>= k) (r' >>= k') :=
  h.bind fun x y e => by subst e; exact hk x

/-- A step which does not depend on the collection. -/
theorem step (r : Res X) {k : X → Res U} {k' : X → Res V}
    (hk : ∀ x, Below P (k x) (k' x)) : Below P (r >>= k) (r >>= k') :=
  (refl r).same hk

theorem mono {Q' : X → Y → Prop} {r : Res X} {r' : Res Y} (h : Below Q r r')
    (hq : ∀ x y, Q x y → Q' x y) : Below Q' r r' := by
  cases h with
  | ub => exact .ub _
  | ok h => exact .ok (hq _ _ h)
  | panic => exact .panic
  | hang => exact .hang

theorem of_ok {x : X} {r' : Res Y} (h : Below Q (Res.ok x) r') : ∃ y, r' = Res.ok y ∧ Q x y := by
  cases h with
  | ok h => exact ⟨_, rfl, h⟩

theorem of_panic {r' : Res Y} (h : Below Q Res.panic r') : r' = Res.panic := by
  cases h; rfl

theorem ite {b : Prop} [Decidable b] {r s : Res X} {r' s' : Res Y} (h : Below Q r r')
    (h' : Below Q s s') : Below Q (if b then r else s) (if b then r' else s') := by
  split
  · exact h
  · exact h'

end Below

/-! ### Collections -/

section Arrays
variable {A B α : Type} {w : Nat} [SIMDSized A] [SIMDArray A α w] [SIMDSized B] [SIMDArray B α w]

/-- Whatever a method of `SIMDArray` does on the left, unless it is undefined, it
does on the right. -/
structure ArrBelow (c : Cfg) (R : A → B → Prop) : Prop where
  scalarLen : ∀ {a b}, R a b → Below Eq (scalarLen c a) (scalarLen c b)
  load : ∀ {a b}, R a b → ∀ o, Below Eq (SIMDArray.load c a o) (SIMDArray.load c b o)
  loadUnchecked : ∀ {a b}, R a b → ∀ o,
    Below Eq (SIMDArray.loadUnchecked c a o) (SIMDArray.loadUnchecked c b o)
  loadScalar : ∀ {a b}, R a b → ∀ o,
    Below Eq (SIMDArray.loadScalar c a o) (SIMDArray.loadScalar c b o)
  loadScalarUnchecked : ∀ {a b}, R a b → ∀ o,
    Below Eq (SIMDArray.loadScalarUnchecked c a o) (SIMDArray.loadScalarUnchecked c b o)

end Arrays

section Iterators
variable {I J α : Type} {w : Nat} [SIMDSized I] [SIMDIterator I α w] [SIMDSized J]
  [SIMDIterator J α w]

/-- Whatever a method of the iterator traits does on the left, unless it is
undefined, it does on the right. -/
structure IterBelow (c : Cfg) (R : I → J → Prop) : Prop where
  scalarLen : ∀ {i j}, R i j → Below Eq (SIMDSized.scalarLen c i) (SIMDSized.scalarLen c j)
  next : ∀ {i j}, R i j → Below (OutRel R) (SIMDIterable.next c i) (SIMDIterable.next c j)
  end_ : ∀ {i j}, R i j → Below (OutRel R) (SIMDIterator.end_ c i) (SIMDIterator.end_ c j)
  len : ∀ {i j}, R i j → Below Eq (SIMDIterable.len c i) (SIMDIterable.len c j)
  scalarPos : ∀ {i j}, R i j → Below Eq (SIMDIterable.scalarPos c i) (SIMDIterable.scalarPos c j)
  advance : ∀ {i j}, R i j → ∀ k, Below R (SIMDIterable.advance c i k) (SIMDIterable.advance c j k)
  dflt : ∀ {i j}, R i j → SIMDIterable.dflt i = SIMDIterable.dflt j
  vectorPos : ∀ {i j}, R i j → Below Eq (SIMDIterable.vectorPos c i) (SIMDIterable.vectorPos c j)
  vecLen : ∀ {i j}, R i j → Below Eq (SIMDIterable.vecLen c i) (SIMDIterable.vecLen c j)

theorem IterBelow.finalize {c : Cfg} {R : I → J → Prop} (h : IterBelow c R) {i : I} {j : J}
    (r : R i j) : Below R (Faster.finalize c i) (Faster.finalize c j) :=
  (h.scalarLen r).same fun _ => (h.scalarPos r).same fun _ => .step _ fun _ => h.advance r _

end Iterators

/-! ### Blanket implementations -/

section Blanket
variable {I J α : Type} {w : Nat} [SIMDSized I] [SIMDIterable I α w] [SIMDArray I α w]
  [SIMDSized J] [SIMDIterable J α w] [SIMDArray J α w]

omit [SIMDIterable I α w] [SIMDIterable J α w] in
theorem elementLoop_below {c : Cfg} {R : I → J → Prop} (h : ArrBelow c R) {i : I} {j : J}
    (r : R i j) (e : Nat) : ∀ (n k : Nat) (ret : Vector α w),
    Below Eq (elementLoop c i e n k ret) (elementLoop c j e n k ret) := by
  intro n
  induction n with
  | zero => exact fun _ _ => .refl _
  | succ n ih =>
    intro k ret
    exact .step _ fun _ => (h.loadScalarUnchecked r _).same fun _ => .step _ fun _ => ih _ _

theorem endVec_below {c : Cfg} {R : I → J → Prop} (h : ArrBelow c R) {i : I} {j : J}
    (r : R i j) (hd : SIMDIterable.dflt i = SIMDIterable.dflt j) (len pos e : Nat) :
    Below Eq (endVec c i len pos e) (endVec c j len pos e) := by
  unfold endVec
  refine .ite ?_ ?_
  · refine .step _ fun _ => (h.loadUnchecked r _).same fun _ => ?_
    rw [hd]; exact .refl _
  · rw [hd]; exact elementLoop_below h r _ _ _ _

theorem blanketEnd_below {c : Cfg} {R : I → J → Prop} (h : ArrBelow c R)
    (hpos : ∀ {i j}, R i j → Below Eq (SIMDIterable.scalarPos c i) (SIMDIterable.scalarPos c j))
    (hadv : ∀ {i j}, R i j → ∀ k,
      Below R (SIMDIterable.advance c i k) (SIMDIterable.advance c j k))
    (hd : ∀ {i j}, R i j → SIMDIterable.dflt i = SIMDIterable.dflt j) {i : I} {j : J}
    (r : R i j) : Below (OutRel R) (blanketEnd c i) (blanketEnd c j) := by
  refine (hpos r).same fun _ => (h.scalarLen r).same fun _ => .ite ?_ (.ok ⟨rfl, r⟩)
  refine .step _ fun _ => .step _ fun _ => (endVec_below h r (hd r) _ _ _).same fun _ => ?_
  have hf : Below R (finalize c i) (finalize c j) :=
    (h.scalarLen r).same fun _ => (hpos r).same fun _ => .step _ fun _ => hadv r _
  exact hf.bind fun _ _ r => .ok ⟨rfl, r⟩

omit [SIMDIterable I α w] [SIMDIterable J α w] in
theorem nextUnchecked_below {c : Cfg} {R : I → J → Prop} (h : ArrBelow c R) {i : I} {j : J}
    (r : R i j) (o : Nat) : Below Eq (nextUnchecked c i o) (nextUnchecked c j o) := by
  unfold nextUnchecked
  cases c.debug
  · exact h.loadUnchecked r o
  · exact .step _ fun _ => (h.scalarLen r).same fun _ => .step _ fun _ => h.loadUnchecked r o

theorem endUnchecked_below {c : Cfg} {R : I → J → Prop} (h : ArrBelow c R) {i : I} {j : J}
    (r : R i j) (hd : SIMDIterable.dflt i = SIMDIterable.dflt j) (o e : Nat) :
    Below Eq (endUnchecked c i o e) (endUnchecked c j o e) := by
  unfold endUnchecked
  refine (h.scalarLen r).same fun _ => .step _ fun _ => ?_
  cases c.debug
  · exact endVec_below h r hd _ _ _
  · exact .step _ fun _ => .step _ fun _ => .step _ fun _ => endVec_below h r hd _ _ _

end Blanket

/-! ### `SIMDIter` and `PackedStride` -/

section Views
variable {A B α : Type} {w : Nat} [SIMDSized A] [SIMDArray A α w] [SIMDSized B] [SIMDArray B α w]

/-- Iterators at the same position of related collections. -/
def IterRel (R : A → B → Prop) (i : SIMDIter A α w) (j : SIMDIter B α w) : Prop :=
  i.position = j.position ∧ i.default = j.default ∧ R i.data j.data

omit [SIMDSized A] [SIMDArray A α w] [SIMDSized B] [SIMDArray B α w] in
theorem iterRel_mk {R : A → B → Prop} {p : Nat} {d : Vector α w} {a : A} {b : B} (r : R a b) :
    IterRel R (⟨p, a, d⟩ : SIMDIter A α w) ⟨p, b, d⟩ := ⟨rfl, rfl, r⟩

theorem arrBelow_iter {c : Cfg} {R : A → B → Prop} (h : ArrBelow c R) :
    ArrBelow c (IterRel (α := α) (w := w) R) where
  scalarLen r := h.scalarLen r.2.2
  load r := h.load r.2.2
  loadUnchecked r := h.loadUnchecked r.2.2
  loadScalar r := h.loadScalar r.2.2
  loadScalarUnchecked r := h.loadScalarUnchecked r.2.2

theorem iterBelow_iter {c : Cfg} {R : A → B → Prop} (h : ArrBelow c R) :
    IterBelow c (IterRel (α := α) (w := w) R) := by
  have hpos : ∀ {i : SIMDIter A α w} {j : SIMDIter B α w}, IterRel R i j →
      Below Eq (SIMDIterable.scalarPos c i) (SIMDIterable.scalarPos c j) := fun r => .ok r.1
  have hadv : ∀ {i : SIMDIter A α w} {j : SIMDIter B α w}, IterRel R i j → ∀ k,
      Below (IterRel R) (SIMDIterable.advance c i k) (SIMDIterable.advance c j k) := by
    intro i j r k
    obtain ⟨p, a, d⟩ := i
    obtain ⟨p', b, d'⟩ := j
    obtain ⟨rfl, rfl, r⟩ := r
    exact .step _ fun _ => .ok ⟨rfl, rfl, r⟩
  have ha := arrBelow_iter (α := α) (w := w) h
  refine ⟨ha.scalarLen, ?_, blanketEnd_below ha hpos hadv (fun r => r.2.1), ?_, hpos, hadv,
    fun r => r.2.1, fun r => (hpos r).same fun _ => .refl _,
    fun r => (ha.scalarLen r).same fun _ => .refl _⟩
  · intro i j r
    have r' := r
    obtain ⟨p, a, d⟩ := i
    obtain ⟨p', b, d'⟩ := j
    obtain ⟨rfl, rfl, r⟩ := r
    refine .step _ fun _ => (ha.scalarLen r').same fun _ => .ite ?_ (.ok ⟨rfl, r'⟩)
    exact (ha.loadUnchecked r' _).same fun _ => (hadv r' _).bind fun _ _ r => .ok ⟨rfl, r⟩
  · intro i j r
    exact (h.scalarLen r.2.2).same fun _ => .refl _

variable [Packable α]

/-- Strided iterators at the same index of related collections. -/
def StrideRel (R : A → B → Prop) (i : PackedStride A α w) (j : PackedStride B α w) : Prop :=
  i.pos = j.pos ∧ i.base = j.base ∧ i.stride = j.stride ∧ i.default = j.default ∧ R i.iter j.iter

omit [Packable α] in
theorem strideLoop_below {c : Cfg} {R : A → B → Prop} (h : ArrBelow c R) {a : A} {b : B}
    (r : R a b) (idx : Nat → Res Nat) : ∀ (n i : Nat) (ret : Vector α w),
    Below Eq (strideLoop c a idx n i ret) (strideLoop c b idx n i ret) := by
  intro n
  induction n with
  | zero => exact fun _ _ => .refl _
  | succ n ih =>
    intro i ret
    exact .step _ fun _ => (h.loadScalarUnchecked r _).same fun _ => .step _ fun _ => ih _ _

theorem arrBelow_stride {c : Cfg} {R : A → B → Prop} (h : ArrBelow c R) :
    ArrBelow c (StrideRel (α := α) (w := w) R) := by
  have hun : ∀ {i : PackedStride A α w} {j : PackedStride B α w}, StrideRel R i j → ∀ o,
      Below Eq (PackedStride.loadUnchecked c i o) (PackedStride.loadUnchecked c j o) := by
    intro i j r o
    obtain ⟨a, p, k, s, d⟩ := i
    obtain ⟨b, p', k', s', d'⟩ := j
    obtain ⟨rfl, rfl, rfl, rfl, r⟩ := r
    unfold PackedStride.loadUnchecked
    cases c.debug
    · exact strideLoop_below h r _ _ _ _
    · exact .step _ fun _ => .step _ fun _ => .step _ fun _ => (h.scalarLen r).same fun _ =>
        .step _ fun _ => strideLoop_below h r _ _ _ _
  refine ⟨?_, ?_, hun, ?_, ?_⟩
  · intro i j r
    obtain ⟨-, -, e, -, r⟩ := r
    simp only [SIMDSized.scalarLen]
    rw [e]
    exact (h.scalarLen r).same fun _ => .refl _
  · intro i j r o
    have r' := r
    obtain ⟨a, p, k, s, d⟩ := i
    obtain ⟨b, p', k', s', d'⟩ := j
    obtain ⟨rfl, rfl, rfl, rfl, r⟩ := r
    exact .step _ fun _ => .step _ fun _ => .step _ fun _ => .step _ fun _ =>
      (h.scalarLen r).same fun _ => .step _ fun _ => hun r' o
  · intro i j r o
    obtain ⟨a, p, k, s, d⟩ := i
    obtain ⟨b, p', k', s', d'⟩ := j
    obtain ⟨rfl, rfl, rfl, rfl, r⟩ := r
    exact .step _ fun _ => .step _ fun _ => h.loadScalar r _
  · intro i j r o
    obtain ⟨a, p, k, s, d⟩ := i
    obtain ⟨b, p', k', s', d'⟩ := j
    obtain ⟨rfl, rfl, rfl, rfl, r⟩ := r
    exact .step _ fun _ => .step _ fun _ => h.loadScalarUnchecked r _

theorem iterBelow_stride {c : Cfg} {R : A → B → Prop} (h : ArrBelow c R) :
    IterBelow c (StrideRel (α := α) (w := w) R) := by
  have hpos : ∀ {i : PackedStride A α w} {j : PackedStride B α w}, StrideRel R i j →
      Below Eq (SIMDIterable.scalarPos c i) (SIMDIterable.scalarPos c j) := by
    intro i j r
    simp only [SIMDIterable.scalarPos]
    rw [r.1, r.2.1, r.2.2.1]
    exact .refl _
  have hadv : ∀ {i : PackedStride A α w} {j : PackedStride B α w}, StrideRel R i j → ∀ k,
      Below (StrideRel R) (SIMDIterable.advance c i k) (SIMDIterable.advance c j k) := by
    intro i j r k
    obtain ⟨a, p, k, s, d⟩ := i
    obtain ⟨b, p', k', s', d'⟩ := j
    obtain ⟨rfl, rfl, rfl, rfl, r⟩ := r
    exact .step _ fun _ => .step _ fun _ => .ok ⟨rfl, rfl, rfl, rfl, r⟩
  have ha := arrBelow_stride (α := α) (w := w) h
  refine ⟨ha.scalarLen, ?_, blanketEnd_below ha hpos hadv (fun r => r.2.2.2.1), ?_, hpos, hadv,
    fun r => r.2.2.2.1, ?_, fun r => (ha.scalarLen r).same fun _ => .refl _⟩
  · intro i j r
    have r' := r
    obtain ⟨a, p, k, s, d⟩ := i
    obtain ⟨b, p', k', s', d'⟩ := j
    obtain ⟨rfl, rfl, rfl, rfl, r⟩ := r
    refine .step _ fun _ => .step _ fun _ => (h.scalarLen r).same fun _ => .ite ?_ (.ok ⟨rfl, r'⟩)
    exact (strideLoop_below h r _ _ _ _).same fun _ => (hadv r' _).bind fun _ _ r => .ok ⟨rfl, r⟩
  · intro i j r
    simp only [SIMDIterable.len, vectorLen]
    rw [r.2.2.1]
    exact ((h.scalarLen r.2.2.2.2).same fun _ => .refl _).same fun _ => .refl _
  · intro i j r
    simp only [SIMDIterable.vectorPos]
    rw [r.1, r.2.1, r.2.2.1]
    exact .refl _

end Views

/-! ### Sequences of calls -/

section Calls
variable {I J α : Type} {w : Nat} [SIMDSized I] [SIMDIterator I α w] [SIMDArray I α w]
  [SIMDSized J] [SIMDIterator J α w] [SIMDArray J α w]

theorem runOps_below {c : Cfg} {R : I → J → Prop} (h : IterBelow c R) (ha : ArrBelow c R) :
    ∀ (ops : List IterOp) {i : I} {j : J}, R i j →
    Below (OutRel R) (runOps c i ops) (runOps c j ops) := by
  have hstep : ∀ (op : IterOp) {i : I} {j : J}, R i j →
      Below (OutRel R) (op.step c i) (op.step c j) := by
    intro op i j r
    cases op with
    | next => exact (h.next r).bind fun _ _ e => .ok ⟨by rw [e.1], e.2⟩
    | end_ => exact (h.end_ r).bind fun _ _ e => .ok ⟨by rw [e.1], e.2⟩
    | scalar =>
      have hu : Below (fun x y => x.1 = y.1 ∧ R x.2.iter y.2.iter) (Unpacked.next c (unpack i))
          (Unpacked.next c (unpack j)) := by
        refine (h.scalarPos r).same fun _ => (h.scalarLen r).same fun _ => .ite ?_ (.ok ⟨rfl, r⟩)
        exact (h.scalarPos r).same fun _ => (ha.loadScalarUnchecked r _).same fun _ =>
          (h.advance r _).bind fun _ _ r => .ok ⟨rfl, r⟩
      exact hu.bind fun _ _ e => .ok ⟨by rw [e.1], e.2⟩
    | advance k => exact (h.advance r k).bind fun _ _ r => .ok ⟨rfl, r⟩
    | finalize => exact (h.finalize r).bind fun _ _ r => .ok ⟨rfl, r⟩
    | len => exact (h.len r).same fun _ => .ok ⟨rfl, r⟩
    | scalarPos => exact (h.scalarPos r).same fun _ => .ok ⟨rfl, r⟩
    | scalarLen => exact (h.scalarLen r).same fun _ => .ok ⟨rfl, r⟩
    | vectorLen => exact (h.vecLen r).same fun _ => .ok ⟨rfl, r⟩
    | vectorPos => exact (h.vectorPos r).same fun _ => .ok ⟨rfl, r⟩
    | load o => exact (ha.load r o).same fun _ => .ok ⟨rfl, r⟩
    | loadScalar o => exact (ha.loadScalar r o).same fun _ => .ok ⟨rfl, r⟩
  intro ops
  induction ops with
  | nil => exact fun r => .ok ⟨rfl, r⟩
  | cons op ops ih =>
    intro i j r
    refine (hstep op r).bind fun x y e => (ih e.2).bind fun x' y' e' => .ok ⟨?_, e'.2⟩
    rw [e.1, e'.1]

end Calls
end Faster
