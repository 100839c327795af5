import Verif.Lemmas.BelowMore
import Verif.Lemmas.ForEach
/-
Programs on two related collections, continued: `simd_for_each`, the consumers
of zips, and unrolled iteration.
-/
namespace Faster
open Res SIMDSized SIMDIterable SIMDIterator MutM

/-! ### Code which changes a place -/

/-- The outcome on the left is undefined, or both are of the same kind with
related values, and the places are related, also after a panic. -/
inductive PlaceBelow {X Y S T : Type} (Q : X → Y → Prop) (R : S → T → Prop) :
    Res X × S → Res Y × T → Prop where
  | ub (s : S) (r : Res Y × T) : PlaceBelow Q R (ub, s) r
  | ok {x : X} {y : Y} {s : S} {t : T} (h : Q x y) (r : R s t) : PlaceBelow Q R (ok x, s) (ok y, t)
  | panic {s : S} {t : T} (r : R s t) : PlaceBelow Q R (panic, s) (panic, t)
  | hang {s : S} {t : T} (r : R s t) : PlaceBelow Q R (hang, s) (hang, t)

/-- The same for code run in all related places. -/
def MutBelow {X Y S T : Type} (Q : X → Y → Prop) (R : S → T → Prop) (x : MutM S X)
    (y : MutM T Y) : Prop := ∀ s t, R s t → PlaceBelow Q R (x s) (y t)

namespace MutBelow
variable {X Y U V S T : Type} {Q : X → Y → Prop} {P : U → V → Prop} {R : S → T → Prop}

theorem bind {x : MutM S X} {y : MutM T Y} {k : X → MutM S U} {k' : Y → MutM T V}
    (h : MutBelow Q R x y) (hk : ∀ a b, Q a b → MutBelow P R (k a) (k' b)) :
    MutBelow P R (x >>= k) (y >>= k') := by
  intro s t r
  rw [run_bind, run_bind]
  have := h s t r
  generalize x s = xs at this ⊢
  generalize y t = yt at this ⊢
  cases this with
  | ub => exact .ub _ _
  | ok q r => exact hk _ _ q _ _ r
  | panic r => exact .panic r
  | hang r => exact .hang r

theorem same {x : MutM S X} {y : MutM T X} {k : X → MutM S U} {k' : X → MutM T V}
    (h : MutBelow Eq R x y) (hk : ∀ a, MutBelow P R (k a) (k' a)) :
    MutBelow P R (x >>= k) (y >>= k') :=
  h.bind fun a b e => by subst e; exact hk a

theorem lift {x : Res X} {y : Res Y} (h : Below Q x y) :
    MutBelow Q R (MutM.lift x) (MutM.lift y) := by
  intro s t r
  rw [run_lift, run_lift]
  cases h with
  | ub => exact .ub _ _
  | ok q => exact .ok q r
  | panic => exact .panic r
  | hang => exact .hang r

theorem get : MutBelow R R (MutM.get : MutM S S) (MutM.get : MutM T T) := by
  intro s t r
  exact .ok r r

theorem pure {a : X} {b : Y} (q : Q a b) :
    MutBelow Q R (Pure.pure a : MutM S X) (Pure.pure b : MutM T Y) := by
  intro s t r
  exact .ok q r

theorem call {f : S → Res (X × S)} {g : T → Res (X × T)}
    (h : ∀ s t, R s t → Below (OutRel R) (f s) (g t)) :
    MutBelow Eq R (MutM.call f) (MutM.call g) := by
  intro s t r
  rw [run_call, run_call]
  have := h s t r
  generalize f s = fs at this ⊢
  generalize g t = gt at this ⊢
  cases this with
  | ub => exact .ub _ _
  | ok q => exact .ok q.1 q.2
  | panic => exact .panic r
  | hang => exact .hang r

theorem modify {f : S → Res S} {g : T → Res T} (h : ∀ s t, R s t → Below R (f s) (g t)) :
    MutBelow Eq R (MutM.modify f) (MutM.modify g) :=
  call fun s t r => (h s t r).bind fun _ _ r => .ok ⟨rfl, r⟩

theorem ite {b : Prop} [Decidable b] {x y : MutM S X} {x' y' : MutM T Y} (h : MutBelow Q R x x')
    (h' : MutBelow Q R y y') : MutBelow Q R (if b then x else y) (if b then x' else y') := by
  split
  · exact h
  · exact h'

end MutBelow

section ForEach
variable {A B α : Type} {w : Nat} [SIMDSized A] [SIMDArray A α w] [SIMDArrayMut A α w]
  [SIMDSized B] [SIMDArray B α w] [SIMDArrayMut B α w]

/-- Whatever an unchecked store does on the left, unless it is undefined, it does
on the right. -/
structure StoreBelow (c : Cfg) (R : A → B → Prop) : Prop where
  store : ∀ {a b}, R a b → ∀ v o,
    Below R (SIMDArrayMut.storeUnchecked c a v o) (SIMDArrayMut.storeUnchecked c b v o)
  storeScalar : ∀ {a b}, R a b → ∀ x o,
    Below R (SIMDArrayMut.storeScalarUnchecked c a x o) (SIMDArrayMut.storeScalarUnchecked c b x o)

theorem simdForEach_below {σ : Type} [Packable α] {c : Cfg} {R : A → B → Prop}
    (h : ArrBelow c R) (hs : StoreBelow c R) (fuel : Nat) (st : σ)
    (f : FnMut σ (Vector α w) (Vector α w)) :
    MutBelow Eq (IterRel (α := α) (w := w) R) (simdForEach c fuel st f) (simdForEach c fuel st f) := by
  have hi := iterBelow_iter (α := α) (w := w) h
  have hst : ∀ v o, ∀ (i : SIMDIter A α w) (j : SIMDIter B α w), IterRel R i j →
      Below (IterRel R) (SIMDIter.dataStoreUnchecked c v o i) (SIMDIter.dataStoreUnchecked c v o j) :=
    fun v o i j r => (hs.store r.2.2 v o).bind fun _ _ e => .ok ⟨r.1, r.2.1, e⟩
  have hst2 : ∀ v (o : Res Nat), ∀ (i : SIMDIter A α w) (j : SIMDIter B α w), IterRel R i j →
      Below (IterRel R) (do SIMDIter.dataStoreUnchecked c v (← o) i)
        (do SIMDIter.dataStoreUnchecked c v (← o) j) :=
    fun v o i j r => .step _ fun _ => hst _ _ _ _ r
  have hsc : ∀ x o, ∀ (i : SIMDIter A α w) (j : SIMDIter B α w), IterRel R i j →
      Below (IterRel R) (SIMDIter.dataStoreScalarUnchecked c x o i)
        (SIMDIter.dataStoreScalarUnchecked c x o j) :=
    fun x o i j r => (hs.storeScalar r.2.2 x o).bind fun _ _ e => .ok ⟨r.1, r.2.1, e⟩
  have hloop : ∀ (fuel : Nat) (lv : Vector α w) (st : σ),
      MutBelow Eq (IterRel (α := α) (w := w) R) (forEachLoop c f fuel lv st)
        (forEachLoop c f fuel lv st) := by
    intro fuel
    induction fuel with
    | zero => exact fun _ _ => .lift .hang
    | succ fuel ih =>
      intro lv st
      refine (MutBelow.call fun _ _ r => hi.next r).same fun o => ?_
      cases o with
      | none => exact .pure rfl
      | some v =>
        refine (MutBelow.lift (.refl _)).same fun x => MutBelow.get.bind fun i j r => ?_
        refine (MutBelow.lift ((hi.scalarPos r).same fun _ => .refl _)).same fun o => ?_
        exact (MutBelow.modify (hst _ _)).same fun _ => ih _ _
  have htail : ∀ (p : Vector α w) (n o k i : Nat),
      MutBelow Eq (IterRel (α := α) (w := w) R) (forEachTailLoop c p n o k i)
        (forEachTailLoop c p n o k i) := by
    intro p n o k
    induction k with
    | zero => exact fun _ => .pure rfl
    | succ k ih =>
      intro i
      exact (MutBelow.lift (.refl _)).same fun _ => (MutBelow.lift (.refl _)).same fun _ =>
        (MutBelow.modify (hsc _ _)).same fun _ => ih _
  unfold simdForEach
  refine (hloop fuel _ st).same fun x => MutBelow.get.bind fun i j r => ?_
  refine (MutBelow.lift (hi.scalarPos r)).same fun o => ?_
  refine (MutBelow.call fun _ _ r => hi.end_ r).same fun t => ?_
  cases t with
  | none => exact .pure rfl
  | some t =>
    refine (MutBelow.lift (.refl _)).same fun y => MutBelow.get.bind fun i j r => ?_
    refine (MutBelow.lift (hi.scalarLen r)).same fun len => .ite ?_ ?_
    · refine (MutBelow.modify (hst2 _ _)).same fun _ => ?_
      exact (MutBelow.modify (hst2 _ _)).same fun _ => .pure rfl
    · exact (MutBelow.lift (.refl _)).same fun _ => (htail _ _ _ _ _).same fun _ => .pure rfl

end ForEach

/-! ### Consumers of zips -/

section ZipConsumers
variable {Y Z γ : Type} [SIMDZippedIterator Y γ] [SIMDZippedIterator Z γ] {c : Cfg}
  {R : Y → Z → Prop}

theorem zsimdReduce_below {A σ : Type} (h : ZipBelow c R) (fuel : Nat) (start : A) (st : σ)
    (f : σ → A → γ → Res (A × σ)) {i : Y} {j : Z} (r : R i j) :
    Below (StRel R) (zsimdReduce c fuel i start st f) (zsimdReduce c fuel j start st f) := by
  have hloop : ∀ (fuel : Nat) (i : Y) (j : Z) (acc : A) (st : σ), R i j →
      Below (StRel R) (zreduceLoop c f fuel i acc st) (zreduceLoop c f fuel j acc st) := by
    intro fuel
    induction fuel with
    | zero => exact fun _ _ _ _ _ => .hang
    | succ fuel ih =>
      intro i j acc st r
      refine (h.next r).bind fun x y e => ?_
      obtain ⟨o, i⟩ := x
      obtain ⟨o', j⟩ := y
      obtain ⟨rfl, r⟩ := e
      cases o with
      | none => exact .ok ⟨r, rfl⟩
      | some v => exact .step _ fun _ => ih _ _ _ _ r
  refine (hloop fuel i j start st r).bind fun x y e => ?_
  obtain ⟨i, acc, st⟩ := x
  obtain ⟨j, acc', st'⟩ := y
  obtain ⟨r, e⟩ := e
  cases e
  refine (h.end_ r).bind fun x y e => ?_
  obtain ⟨o, i⟩ := x
  obtain ⟨o', j⟩ := y
  obtain ⟨rfl, r⟩ := e
  cases o with
  | none => exact .ok ⟨r, rfl⟩
  | some v => exact .step _ fun _ => .ok ⟨r, rfl⟩

theorem zsimdDoEach_below {σ : Type} (h : ZipBelow c R) (fuel : Nat) (st : σ)
    (f : FnMut σ γ Unit) {i : Y} {j : Z} (r : R i j) :
    Below (StRel R) (zsimdDoEach c fuel i st f) (zsimdDoEach c fuel j st f) := by
  have hloop : ∀ (fuel : Nat) (i : Y) (j : Z) (st : σ), R i j →
      Below (StRel R) (zdoEachLoop c f fuel i st) (zdoEachLoop c f fuel j st) := by
    intro fuel
    induction fuel with
    | zero => exact fun _ _ _ _ => .hang
    | succ fuel ih =>
      intro i j st r
      refine (h.next r).bind fun x y e => ?_
      obtain ⟨o, i⟩ := x
      obtain ⟨o', j⟩ := y
      obtain ⟨rfl, r⟩ := e
      cases o with
      | none => exact .ok ⟨r, rfl⟩
      | some v => exact .step _ fun _ => ih _ _ _ r
  refine (hloop fuel i j st r).bind fun x y e => ?_
  obtain ⟨i, st⟩ := x
  obtain ⟨j, st'⟩ := y
  obtain ⟨r, rfl⟩ := e
  refine (h.end_ r).bind fun x y e => ?_
  obtain ⟨o, i⟩ := x
  obtain ⟨o', j⟩ := y
  obtain ⟨rfl, r⟩ := e
  cases o with
  | none => exact .ok ⟨r, rfl⟩
  | some v => exact .step _ fun _ => .ok ⟨r, rfl⟩

end ZipConsumers

/-! ### Unrolled iteration -/

section Unrolled
variable {I J α : Type} {w : Nat} [SIMDSized I] [SIMDIterator I α w] [SIMDSized J]
  [SIMDIterator J α w] {c : Cfg} {R : I → J → Prop}

/-- Unrolled views of related iterators with the same buffer. -/
def UnrollRel (R : I → J → Prop) (u : Unrolled I α w) (v : Unrolled J α w) : Prop :=
  u.amt = v.amt ∧ u.scratch = v.scratch ∧ R u.iter v.iter

theorem unrolledNext_below (h : IterBelow c R) {u : Unrolled I α w} {v : Unrolled J α w}
    (r : UnrollRel R u v) :
    Below (OutRel (UnrollRel R)) (Unrolled.next c u) (Unrolled.next c v) := by
  have hloop : ∀ (k i : Nat) (u : Unrolled I α w) (v : Unrolled J α w), UnrollRel R u v →
      Below (OutRel (UnrollRel R)) (Unrolled.nextLoop c k i u) (Unrolled.nextLoop c k i v) := by
    intro k
    induction k with
    | zero => exact fun _ _ _ r => .ok ⟨rfl, r⟩
    | succ k ih =>
      intro i u v r
      obtain ⟨it, amt, scr⟩ := u
      obtain ⟨it', amt', scr'⟩ := v
      obtain ⟨e1, e2, r⟩ := r
      dsimp only at e1 e2 r
      subst e1; subst e2
      refine (h.next r).bind fun x y e => ?_
      obtain ⟨o, i1⟩ := x
      obtain ⟨o', j1⟩ := y
      obtain ⟨rfl, r1⟩ := e
      cases o with
      | none => exact .ok ⟨rfl, rfl, rfl, r1⟩
      | some vec =>
        dsimp only
        by_cases hi : i < 8
        · rw [dif_pos hi, dif_pos hi]
          exact ih _ _ _ ⟨rfl, rfl, r1⟩
        · rw [dif_neg hi, dif_neg hi]
          exact .panic
  unfold Unrolled.next
  rw [r.1]
  refine (hloop v.amt 0 u v r).bind fun x y e => ?_
  obtain ⟨n, u⟩ := x
  obtain ⟨n', v⟩ := y
  obtain ⟨rfl, r⟩ := e
  exact .ite (.ok ⟨rfl, r⟩) (.ok ⟨rfl, r⟩)

end Unrolled
end Faster
