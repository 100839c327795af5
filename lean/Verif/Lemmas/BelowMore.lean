import Verif.Lemmas.Below
/-
Programs on two related collections, continued: maps, zips, stride_zips, and the
consumers.
-/
namespace Faster
open Res SIMDSized SIMDIterable SIMDIterator

/-! ### Maps -/

section Map
variable {I J σ α β : Type} {w w' : Nat} [SIMDSized I] [SIMDIterator I α w] [SIMDSized J]
  [SIMDIterator J α w]

/-- The same closure in the same state over related iterators. -/
def MapRel (R : I → J → Prop) (m : SIMDMap I σ α w β w') (n : SIMDMap J σ α w β w') : Prop :=
  m.st = n.st ∧ m.func = n.func ∧ R m.iter n.iter

theorem iterBelow_map [Packable α] [Packable β] {c : Cfg} {R : I → J → Prop} (h : IterBelow c R) :
    IterBelow c (MapRel (σ := σ) (α := α) (w := w) (β := β) (w' := w') R) := by
  refine ⟨fun r => h.len r.2.2, ?_, ?_, fun r => h.len r.2.2, fun r => h.scalarPos r.2.2, ?_,
    fun _ => rfl, fun r => (h.scalarPos r.2.2).same fun _ => .refl _,
    fun r => (h.len r.2.2).same fun _ => .refl _⟩
  · intro m n r
    obtain ⟨i, st, f⟩ := m
    obtain ⟨j, st', f'⟩ := n
    obtain ⟨rfl, rfl, r⟩ := r
    refine (h.next r).bind fun x y e => ?_
    obtain ⟨o, i⟩ := x
    obtain ⟨o', j⟩ := y
    obtain ⟨rfl, r⟩ := e
    cases o with
    | none => exact .ok ⟨rfl, rfl, rfl, r⟩
    | some v => exact .step _ fun _ => .ok ⟨rfl, rfl, rfl, r⟩
  · intro m n r
    obtain ⟨i, st, f⟩ := m
    obtain ⟨j, st', f'⟩ := n
    obtain ⟨rfl, rfl, r⟩ := r
    refine (h.end_ r).bind fun x y e => ?_
    obtain ⟨o, i⟩ := x
    obtain ⟨o', j⟩ := y
    obtain ⟨rfl, r⟩ := e
    cases o with
    | none => exact .ok ⟨rfl, rfl, rfl, r⟩
    | some v => exact .step _ fun _ => .step _ fun _ => .step _ fun _ => .ok ⟨rfl, rfl, rfl, r⟩
  · intro m n r k
    obtain ⟨i, st, f⟩ := m
    obtain ⟨j, st', f'⟩ := n
    obtain ⟨rfl, rfl, r⟩ := r
    exact (h.advance r k).bind fun _ _ r => .ok ⟨rfl, rfl, r⟩

end Map

/-! ### Zips -/

/-- Whatever a method of the zipped traits does on the left, unless it is
undefined, it does on the right. -/
structure ZipBelow {Y Z γ : Type} [SIMDZippedIterator Y γ] [SIMDZippedIterator Z γ] (c : Cfg)
    (R : Y → Z → Prop) : Prop where
  width : ∀ {i j}, R i j → SIMDZippedIterator.width i = SIMDZippedIterator.width j
  size : ∀ {i j}, R i j → SIMDZippedIterator.size i = SIMDZippedIterator.size j
  next : ∀ {i j}, R i j →
    Below (OutRel R) (SIMDZippedIterator.next c i) (SIMDZippedIterator.next c j)
  end_ : ∀ {i j}, R i j →
    Below (OutRel R) (SIMDZippedIterator.end_ c i) (SIMDZippedIterator.end_ c j)
  len : ∀ {i j}, R i j → Below Eq (SIMDZippedIterator.len c i) (SIMDZippedIterator.len c j)
  scalarPos : ∀ {i j}, R i j →
    Below Eq (SIMDZippedIterator.scalarPos c i) (SIMDZippedIterator.scalarPos c j)
  advance : ∀ {i j}, R i j → ∀ k,
    Below R (SIMDZippedIterator.advance c i k) (SIMDZippedIterator.advance c j k)
  dflt : ∀ {i j}, R i j → SIMDZippedIterator.dflt i = SIMDZippedIterator.dflt j
  scalarLen : ∀ {i j}, R i j →
    Below Eq (SIMDZippedIterator.scalarLen c i) (SIMDZippedIterator.scalarLen c j)
  vectorPos : ∀ {i j}, R i j →
    Below Eq (SIMDZippedIterator.vectorPos c i) (SIMDZippedIterator.vectorPos c j)
  vectorLen : ∀ {i j}, R i j →
    Below Eq (SIMDZippedIterator.vectorLen c i) (SIMDZippedIterator.vectorLen c j)

/-- The same for the iterators after the first of a tuple. -/
structure RestBelow {Q S γ : Type} [ZipRest Q γ] [ZipRest S γ] (c : Cfg) (R : Q → S → Prop) :
    Prop where
  lenDiffers : ∀ {i j}, R i j → ∀ n,
    Below Eq (ZipRest.lenDiffers c i n) (ZipRest.lenDiffers c j n)
  nextAll : ∀ {i j}, R i j → ∀ p, Below Eq (ZipRest.nextAll c i p) (ZipRest.nextAll c j p)
  endAll : ∀ {i j}, R i j → ∀ p n, Below Eq (ZipRest.endAll c i p n) (ZipRest.endAll c j p n)
  defaultAll : ∀ {i j}, R i j → ZipRest.defaultAll i = ZipRest.defaultAll j

theorem restBelow_unit (c : Cfg) : RestBelow c (fun _ _ : Unit => True) where
  lenDiffers _ _ := .refl _
  nextAll _ _ := .refl _
  endAll _ _ _ := .refl _
  defaultAll _ := rfl

section Rest
variable {I J Q S α γ : Type} {w : Nat} [SIMDSized I] [SIMDIterator I α w] [SIMDArray I α w]
  [SIMDSized J] [SIMDIterator J α w] [SIMDArray J α w] [ZipRest Q γ] [ZipRest S γ]

theorem restBelow_cons {c : Cfg} {R : I → J → Prop} {R' : Q → S → Prop} (h : IterBelow c R)
    (ha : ArrBelow c R) (h' : RestBelow c R') :
    RestBelow c (fun (x : I × Q) (y : J × S) => R x.1 y.1 ∧ R' x.2 y.2) where
  lenDiffers r n := (h.len r.1).same fun _ => .ite (.refl _) (h'.lenDiffers r.2 n)
  nextAll r p := (nextUnchecked_below ha r.1 p).same fun _ =>
    (h'.nextAll r.2 p).same fun _ => .refl _
  endAll r p n := (endUnchecked_below ha r.1 (h.dflt r.1) p n).same fun _ =>
    (h'.endAll r.2 p n).same fun _ => .refl _
  defaultAll {i j} r := by
    show (SIMDIterable.dflt i.1, ZipRest.defaultAll i.2) =
      (SIMDIterable.dflt j.1, ZipRest.defaultAll j.2)
    rw [h.dflt r.1, h'.defaultAll r.2]

end Rest

section Zip
variable {I J Q S α γ : Type} {w : Nat} [SIMDSized I] [SIMDIterator I α w]
  [SIMDSized J] [SIMDIterator J α w] [Packable α] [ZipRest Q γ] [ZipRest S γ]

/-- Zips of related iterators. -/
def ZipRel (R : I → J → Prop) (R' : Q → S → Prop) (y : Zip I Q) (z : Zip J S) : Prop :=
  R y.first z.first ∧ R' y.rest z.rest

omit [Packable α] in
theorem zip_below {c : Cfg} {R : I → J → Prop} {R' : Q → S → Prop} (h : IterBelow c R)
    (h' : RestBelow c R') {i : I} {j : J} {q : Q} {s : S} (r : R i j) (r' : R' q s) :
    Below (ZipRel R R') (zip c i q) (zip c j s) :=
  (h.len r).same fun _ => (h'.lenDiffers r' _).same fun _ => .ite .panic (.ok ⟨r, r'⟩)

theorem zipBelow_zip {c : Cfg} {R : I → J → Prop} {R' : Q → S → Prop} (h : IterBelow c R)
    (h' : RestBelow c R') : ZipBelow c (ZipRel R R') := by
  refine ⟨fun _ => rfl, fun _ => rfl, ?_, ?_, fun r => h.len r.1, fun r => h.scalarPos r.1,
    fun r k => (h.advance r.1 k).bind fun _ _ e => .ok ⟨e, r.2⟩, ?_, fun r => h.len r.1,
    fun r => (h.scalarPos r.1).same fun _ => .refl _,
    fun r => (h.len r.1).same fun _ => .refl _⟩
  · intro y z r
    refine (h.scalarPos r.1).same fun p => (h.next r.1).bind fun x y e => ?_
    obtain ⟨o, i⟩ := x
    obtain ⟨o', j⟩ := y
    obtain ⟨rfl, r1⟩ := e
    cases o with
    | none => exact .ok ⟨rfl, r1, r.2⟩
    | some v => exact (h'.nextAll r.2 p).same fun _ => .ok ⟨rfl, r1, r.2⟩
  · intro y z r
    refine (h.scalarPos r.1).same fun p => (h.end_ r.1).bind fun x y e => ?_
    obtain ⟨o, i⟩ := x
    obtain ⟨o', j⟩ := y
    obtain ⟨rfl, r1⟩ := e
    cases o with
    | none => exact .ok ⟨rfl, r1, r.2⟩
    | some v => exact (h'.endAll r.2 p v.2).same fun _ => .ok ⟨rfl, r1, r.2⟩
  · intro y z r
    show (SIMDIterable.dflt y.first, ZipRest.defaultAll y.rest) =
      (SIMDIterable.dflt z.first, ZipRest.defaultAll z.rest)
    rw [h.dflt r.1, h'.defaultAll r.2]

/-- stride_zips of related iterators. -/
def StrideZipRel (R : I → J → Prop) (y : StrideZip I α w) (z : StrideZip J α w) : Prop :=
  y.base = z.base ∧ y.peek = z.peek ∧ R y.iter z.iter

omit [Packable α] in
theorem strideZip_below {c : Cfg} {R : I → J → Prop} (h : IterBelow c R) {i : I} {j : J}
    (r : R i j) : Below (StrideZipRel (α := α) (w := w) R) (strideZip c i) (strideZip c j) :=
  (h.scalarPos r).same fun _ => .ok ⟨rfl, rfl, r⟩

theorem zipBelow_strideZip {c : Cfg} {R : I → J → Prop} (h : IterBelow c R) :
    ZipBelow c (StrideZipRel (α := α) (w := w) R) := by
  have hpos : ∀ {y : StrideZip I α w} {z : StrideZip J α w}, StrideZipRel R y z →
      Below Eq (SIMDZippedIterator.scalarPos c y) (SIMDZippedIterator.scalarPos c z) := by
    intro y z r
    simp only [SIMDZippedIterator.scalarPos]
    rw [r.1]
    exact (h.scalarPos r.2.2).same fun _ => .refl _
  have hlen : ∀ {y : StrideZip I α w} {z : StrideZip J α w}, StrideZipRel R y z →
      Below Eq (SIMDZippedIterator.scalarLen c y) (SIMDZippedIterator.scalarLen c z) :=
    fun r => (h.scalarLen r.2.2).same fun _ => .refl _
  refine ⟨fun _ => rfl, fun _ => rfl, ?_, ?_, fun r => (h.len r.2.2).same fun _ => .refl _, hpos,
    fun r k => .step _ fun _ => (h.advance r.2.2 _).bind fun _ _ e => .ok ⟨r.1, r.2.1, e⟩,
    fun _ => rfl, hlen, ?_, fun r => (hlen r).same fun _ => .refl _⟩
  · intro y z r
    obtain ⟨b, p, i⟩ := y
    obtain ⟨b', p', j⟩ := z
    obtain ⟨rfl, rfl, r⟩ := r
    refine (h.next r).bind fun x y e => ?_
    obtain ⟨o, i⟩ := x
    obtain ⟨o', j⟩ := y
    obtain ⟨rfl, r⟩ := e
    cases o with
    | none => exact .ok ⟨rfl, rfl, rfl, r⟩
    | some v =>
      refine (h.next r).bind fun x y e => ?_
      obtain ⟨o, i⟩ := x
      obtain ⟨o', j⟩ := y
      obtain ⟨rfl, r⟩ := e
      cases o with
      | none => exact .ok ⟨rfl, rfl, rfl, r⟩
      | some u => exact .ok ⟨rfl, rfl, rfl, r⟩
  · intro y z r
    obtain ⟨b, p, i⟩ := y
    obtain ⟨b', p', j⟩ := z
    obtain ⟨rfl, rfl, r⟩ := r
    refine (h.next r).bind fun x y e => ?_
    obtain ⟨o, i⟩ := x
    obtain ⟨o', j⟩ := y
    obtain ⟨rfl, r⟩ := e
    refine (h.end_ r).bind fun x y e => ?_
    obtain ⟨t, i⟩ := x
    obtain ⟨t', j⟩ := y
    obtain ⟨rfl, r⟩ := e
    have r3 : R i j := r
    dsimp only
    rw [← h.dflt r3]
    cases o with
    | some v => exact .step _ fun _ => .ok ⟨rfl, rfl, rfl, r3⟩
    | none =>
      cases p with
      | some v => exact .step _ fun _ => .ok ⟨rfl, rfl, rfl, r3⟩
      | none => exact .ite (.ok ⟨rfl, rfl, rfl, r3⟩) (.ok ⟨rfl, rfl, rfl, r3⟩)
  · intro y z r
    simp only [SIMDZippedIterator.vectorPos]
    rw [r.1]
    exact (h.vectorPos r.2.2).same fun _ => .refl _

end Zip

section ZipMap
variable {Y Z σ γ β : Type} {w' : Nat} [SIMDZippedIterator Y γ] [SIMDZippedIterator Z γ]

/-- The same closure in the same state over related zips. -/
def ZipMapRel (R : Y → Z → Prop) (m : SIMDZipMap Y σ γ β w') (n : SIMDZipMap Z σ γ β w') : Prop :=
  m.st = n.st ∧ m.func = n.func ∧ R m.iter n.iter

theorem iterBelow_zipMap [Packable β] {c : Cfg} {R : Y → Z → Prop} (h : ZipBelow c R) :
    IterBelow c (ZipMapRel (σ := σ) (γ := γ) (β := β) (w' := w') R) := by
  refine ⟨fun r => h.scalarLen r.2.2, ?_, ?_, fun r => h.len r.2.2, fun r => h.scalarPos r.2.2, ?_,
    fun _ => rfl, fun r => (h.scalarPos r.2.2).same fun _ => .refl _, fun r => h.vectorLen r.2.2⟩
  · intro m n r
    obtain ⟨i, st, f⟩ := m
    obtain ⟨j, st', f'⟩ := n
    obtain ⟨rfl, rfl, r⟩ := r
    refine (h.next r).bind fun x y e => ?_
    obtain ⟨o, i⟩ := x
    obtain ⟨o', j⟩ := y
    obtain ⟨rfl, r⟩ := e
    cases o with
    | none => exact .ok ⟨rfl, rfl, rfl, r⟩
    | some v => exact .step _ fun _ => .ok ⟨rfl, rfl, rfl, r⟩
  · intro m n r
    obtain ⟨i, st, f⟩ := m
    obtain ⟨j, st', f'⟩ := n
    obtain ⟨rfl, rfl, r⟩ := r
    refine (h.end_ r).bind fun x y e => ?_
    obtain ⟨o, i⟩ := x
    obtain ⟨o', j⟩ := y
    obtain ⟨rfl, r⟩ := e
    cases o with
    | none => exact .ok ⟨rfl, rfl, rfl, r⟩
    | some v =>
      dsimp only
      rw [h.size r]
      exact .step _ fun _ => .step _ fun _ => .step _ fun _ => .ok ⟨rfl, rfl, rfl, r⟩
  · intro m n r k
    obtain ⟨i, st, f⟩ := m
    obtain ⟨j, st', f'⟩ := n
    obtain ⟨rfl, rfl, r⟩ := r
    exact (h.advance r k).bind fun _ _ r => .ok ⟨rfl, rfl, r⟩

end ZipMap

/-! ### Consumers -/

section Consumers
variable {I J α : Type} {w : Nat} [SIMDSized I] [SIMDIterator I α w] [SIMDSized J]
  [SIMDIterator J α w] {c : Cfg} {R : I → J → Prop}

theorem simdReduce_below {A σ : Type} (h : IterBelow c R) (fuel : Nat) (start : A) (st : σ)
    (f : σ → A → Vector α w → Res (A × σ)) {i : I} {j : J} (r : R i j) :
    Below (StRel R) (simdReduce c fuel i start st f) (simdReduce c fuel j start st f) := by
  have hloop : ∀ (fuel : Nat) (i : I) (j : J) (acc : A) (st : σ), R i j →
      Below (StRel R) (reduceLoop c f fuel i acc st) (reduceLoop c f fuel j acc st) := by
    intro fuel
    induction fuel with
    | zero => exact fun _ _ _ _ _ => .hang
    | succ fuel ih =>
      intro i j acc st r
      refine (h.next r).bind fun x y e => ?_
      obtain ⟨o, i⟩ := x
      obtain ⟨o', j⟩ := y
      obtain ⟨rfl, r⟩ := e
      cases o with
      | none => exact .ok ⟨r, rfl⟩
      | some v => exact .step _ fun _ => ih _ _ _ _ r
  refine (hloop fuel i j start st r).bind fun x y e => ?_
  obtain ⟨i, acc, st⟩ := x
  obtain ⟨j, acc', st'⟩ := y
  obtain ⟨r, e⟩ := e
  cases e
  refine (h.end_ r).bind fun x y e => ?_
  obtain ⟨o, i⟩ := x
  obtain ⟨o', j⟩ := y
  obtain ⟨rfl, r⟩ := e
  cases o with
  | none => exact .ok ⟨r, rfl⟩
  | some v => exact .step _ fun _ => .ok ⟨r, rfl⟩

theorem simdDoEach_below {σ : Type} (h : IterBelow c R) (fuel : Nat) (st : σ)
    (f : FnMut σ (Vector α w) Unit) {i : I} {j : J} (r : R i j) :
    Below (StRel R) (simdDoEach c fuel i st f) (simdDoEach c fuel j st f) := by
  have hloop : ∀ (fuel : Nat) (i : I) (j : J) (st : σ), R i j →
      Below (StRel R) (doEachLoop c f fuel i st) (doEachLoop c f fuel j st) := by
    intro fuel
    induction fuel with
    | zero => exact fun _ _ _ _ => .hang
    | succ fuel ih =>
      intro i j st r
      refine (h.next r).bind fun x y e => ?_
      obtain ⟨o, i⟩ := x
      obtain ⟨o', j⟩ := y
      obtain ⟨rfl, r⟩ := e
      cases o with
      | none => exact .ok ⟨r, rfl⟩
      | some v => exact .step _ fun _ => ih _ _ _ r
  refine (hloop fuel i j st r).bind fun x y e => ?_
  obtain ⟨i, st⟩ := x
  obtain ⟨j, st'⟩ := y
  obtain ⟨r, rfl⟩ := e
  refine (h.end_ r).bind fun x y e => ?_
  obtain ⟨o, i⟩ := x
  obtain ⟨o', j⟩ := y
  obtain ⟨rfl, r⟩ := e
  cases o with
  | none => exact .ok ⟨r, rfl⟩
  | some v => exact .step _ fun _ => .ok ⟨r, rfl⟩

theorem fillLoop_below {κ : Type} (h : IterBelow c R) (inj : α → κ) :
    ∀ (fuel : Nat) (i : I) (j : J) (buf : List κ) (o : Nat) (lv : Vector α w), R i j →
    Below (StRel R) (fillLoop c inj fuel i buf o lv) (fillLoop c inj fuel j buf o lv) := by
  intro fuel
  induction fuel with
  | zero => exact fun _ _ _ _ _ _ => .hang
  | succ fuel ih =>
    intro i j buf o lv r
    refine (h.next r).bind fun x y e => ?_
    obtain ⟨v, i⟩ := x
    obtain ⟨v', j⟩ := y
    obtain ⟨rfl, r⟩ := e
    cases v with
    | none => exact .ok ⟨r, rfl⟩
    | some v => exact .step _ fun _ => .step _ fun _ => ih _ _ _ _ _ r

theorem scalarFill_below [Packable α] (h : IterBelow c R) (fuel : Nat) (fill : List α) {i : I}
    {j : J} (r : R i j) :
    Below (StRel R) (scalarFill c fuel i fill) (scalarFill c fuel j fill) := by
  refine (fillLoop_below h id fuel i j fill 0 Packed.default r).bind fun x y e => ?_
  obtain ⟨i, buf, o, lv⟩ := x
  obtain ⟨j, buf', o', lv'⟩ := y
  obtain ⟨r, e⟩ := e
  cases e
  refine (h.end_ r).bind fun x y e => ?_
  obtain ⟨v, i⟩ := x
  obtain ⟨v', j⟩ := y
  obtain ⟨rfl, r⟩ := e
  cases v with
  | none => exact .ok ⟨r, rfl⟩
  | some v => exact .step _ fun _ => .ok ⟨r, rfl⟩

theorem scalarCollect_below [Packable α] (h : IterBelow c R) (fuel : Nat) {i : I} {j : J}
    (r : R i j) : Below (StRel R) (scalarCollect c fuel i) (scalarCollect c fuel j) := by
  refine (h.len r).same fun _ => .step _ fun _ => .step _ fun _ => (h.len r).same fun _ =>
    .step _ fun _ => .step _ fun _ => .step _ fun v => ?_
  refine (fillLoop_below h some fuel i j v.slice 0 Packed.default r).bind fun x y e => ?_
  obtain ⟨i, buf, o, lv⟩ := x
  obtain ⟨j, buf', o', lv'⟩ := y
  obtain ⟨r, e⟩ := e
  cases e
  refine (h.end_ r).bind fun x y e => ?_
  obtain ⟨t, i⟩ := x
  obtain ⟨t', j⟩ := y
  obtain ⟨rfl, r⟩ := e
  cases t with
  | none =>
    exact (h.len r).same fun _ => .step _ fun _ => .step _ fun _ => .ok ⟨r, rfl⟩
  | some t =>
    exact .step _ fun _ => .step _ fun _ => .step _ fun _ => .step _ fun _ => .ok ⟨r, rfl⟩

theorem scalarFillAllCells_below {κ : Type} (h : IterBelow c R) (inj : α → κ) (fuel : Nat)
    (fill : List κ) {i : I} {j : J} (r : R i j) :
    Below (StRel R) (scalarFillAllCells c inj fuel i fill)
      (scalarFillAllCells c inj fuel j fill) := by
  have hloop : ∀ (fuel : Nat) (i : I) (j : J) (buf : List κ) (o : Nat), R i j →
      Below (StRel R) (fillAllLoop c inj fuel i buf o) (fillAllLoop c inj fuel j buf o) := by
    intro fuel
    induction fuel with
    | zero => exact fun _ _ _ _ _ => .hang
    | succ fuel ih =>
      intro i j buf o r
      refine (h.next r).bind fun x y e => ?_
      obtain ⟨v, i⟩ := x
      obtain ⟨v', j⟩ := y
      obtain ⟨rfl, r⟩ := e
      cases v with
      | none => exact .ok ⟨r, rfl⟩
      | some v => exact .step _ fun _ => .step _ fun _ => ih _ _ _ _ r
  refine (hloop fuel i j fill 0 r).bind fun x y e => ?_
  obtain ⟨i, buf, o⟩ := x
  obtain ⟨j, buf', o'⟩ := y
  obtain ⟨r, e⟩ := e
  cases e
  refine (h.end_ r).bind fun x y e => ?_
  obtain ⟨v, i⟩ := x
  obtain ⟨v', j⟩ := y
  obtain ⟨rfl, r⟩ := e
  cases v with
  | none => exact .ok ⟨r, rfl⟩
  | some v => exact .step _ fun _ => .ok ⟨r, rfl⟩

theorem scalarCollectAll_below (h : IterBelow c R) (fuel : Nat) {i : I} {j : J}
    (r : R i j) : Below (StRel R) (scalarCollectAll c fuel i) (scalarCollectAll c fuel j) := by
  refine (h.len r).same fun _ => .step _ fun _ => .step _ fun _ => (h.len r).same fun _ =>
    .step _ fun v => ?_
  refine (scalarFillAllCells_below h some fuel v.slice r).bind fun x y e => ?_
  obtain ⟨i, buf⟩ := x
  obtain ⟨j, buf'⟩ := y
  obtain ⟨r, rfl⟩ := e
  exact .ok ⟨r, rfl⟩

end Consumers
end Faster
