import Verif.Props.Trace
import Verif.Props.Stride
import Verif.StrideZip
/-
C79: in debug builds no use of the iterators has undefined behaviour.

`x.Ensures Q`: `x` is not undefined behaviour, and if it returns a value, `Q`
holds for it. An iterator type is covered by an invariant `P` of its values
(for a map: the closure has no undefined behaviour of its own), `SafeIter c P`
says that every method is safe where `P` holds and keeps `P`.
-/
namespace Faster
open Res SIMDSized SIMDIterable SIMDIterator

/-- `x` has no undefined behaviour, and its value satisfies `Q`. -/
def Res.Ensures {α : Type u} (x : Res α) (Q : α → Prop) : Prop :=
  match x with
  | ok a => Q a
  | ub => False
  | _ => True

section Logic
variable {α β : Type}

theorem Res.Ensures.isSafe {x : Res α} {Q : α → Prop} (h : x.Ensures Q) : x.isSafe := by
  cases x <;> trivial

theorem Res.Ensures.mono {x : Res α} {Q R : α → Prop} (h : x.Ensures Q)
    (hQ : ∀ a, x = ok a → Q a → R a) : x.Ensures R := by
  cases x with
  | ok a => exact hQ a rfl h
  | _ => exact h

theorem ensures_bind {x : Res α} {f : α → Res β} {Q : α → Prop} {R : β → Prop} (h : x.Ensures Q)
    (hf : ∀ a, x = ok a → Q a → (f a).Ensures R) : (x >>= f).Ensures R := by
  cases x with
  | ok a => exact hf a rfl h
  | panic => trivial
  | ub => exact h
  | hang => trivial

theorem ensures_ok {a : α} {Q : α → Prop} (h : Q a) : (ok a).Ensures Q := h

theorem ensures_panic {Q : α → Prop} : (panic : Res α).Ensures Q := trivial

theorem ensures_hang {Q : α → Prop} : (hang : Res α).Ensures Q := trivial

theorem ensures_ite {p : Prop} [Decidable p] {x y : Res α} {Q : α → Prop}
    (h1 : p → x.Ensures Q) (h2 : ¬ p → y.Ensures Q) : (if p then x else y).Ensures Q := by
  by_cases h : p
  · rw [if_pos h]; exact h1 h
  · rw [if_neg h]; exact h2 h

theorem assert_ensures (b : Bool) : (assert b).Ensures fun _ => b = true := by
  cases b <;> trivial

variable {c : Cfg} (hd : c.debug = true)
include hd

theorem debugAssert_ensures (b : Bool) : (debugAssert c b).Ensures fun _ => b = true := by
  simp only [debugAssert, hd, if_true]
  exact assert_ensures b

theorem uadd_ensures (a b : Nat) : (uadd c a b).Ensures fun r => r = a + b := by
  unfold uadd
  refine ensures_ite (fun _ => rfl) (fun _ => ?_)
  rw [if_pos hd]; trivial

theorem usub_ensures (a b : Nat) : (usub c a b).Ensures fun r => b ≤ a ∧ r = a - b := by
  unfold usub
  refine ensures_ite (fun h => ⟨h, rfl⟩) (fun _ => ?_)
  rw [if_pos hd]; trivial

theorem umul_ensures (a b : Nat) : (umul c a b).Ensures fun r => r = a * b := by
  unfold umul
  refine ensures_ite (fun _ => rfl) (fun _ => ?_)
  rw [if_pos hd]; trivial

omit hd in
theorem udiv_ensures (a b : Nat) : (udiv a b).Ensures fun r => r = a / b := by
  unfold udiv
  exact ensures_ite (fun _ => trivial) (fun _ => rfl)

omit hd in
theorem sliceFrom_ensures (l : List α) (o : Nat) :
    (sliceFrom l o).Ensures fun r => o ≤ l.length ∧ r = l.drop o := by
  unfold sliceFrom
  exact ensures_ite (fun h => ⟨h, rfl⟩) (fun _ => trivial)

omit hd in
theorem index_ensures (l : List α) (i : Nat) : (index l i).Ensures fun _ => i < l.length := by
  by_cases h : i < l.length
  · rw [index_ok h]; exact h
  · simp only [index, List.getElem?_eq_none (Nat.le_of_not_lt h)]; trivial

omit hd in
theorem indexSet_ensures (l : List α) (i : Nat) (x : α) :
    (indexSet l i x).Ensures fun r => i < l.length ∧ r.length = l.length := by
  unfold indexSet
  exact ensures_ite (fun h => ⟨h, by simp⟩) (fun _ => trivial)

omit hd in
theorem fromSliceUnchecked_ensures {w : Nat} (s : List α) (h : w ≤ s.length) :
    (Packed.fromSliceUnchecked s : Res (Vector α w)).Ensures fun _ => True := by
  rw [fromSliceUnchecked_ok h]; trivial

theorem loadUnchecked_ensures {w : Nat} (l : List α) (o : Nat) :
    (Packed.loadUnchecked c l o : Res (Vector α w)).Ensures fun _ => o + w ≤ l.length := by
  simp only [Packed.loadUnchecked, hd, if_true]
  refine ensures_bind (sliceFrom_ensures l o) fun s _ hs => ?_
  refine ensures_bind (assert_ensures _) fun _ _ h1 => ?_
  refine ensures_bind (sliceFrom_ensures l o) fun s2 _ hs2 => ?_
  have h2 : w ≤ s2.length := by
    rw [hs2.2, ← hs.2]
    simpa using h1
  refine (fromSliceUnchecked_ensures s2 h2).mono fun _ _ _ => ?_
  rw [hs2.2, List.length_drop] at h2
  omega

omit hd in
theorem load_ensures {w : Nat} (l : List α) (o : Nat) :
    (Packed.load l o : Res (Vector α w)).Ensures fun _ => True := by
  simp only [Packed.load, Packed.fromSlice]
  refine ensures_bind (sliceFrom_ensures l o) fun s _ _ => ?_
  refine ensures_bind (assert_ensures _) fun _ _ h1 => ?_
  exact fromSliceUnchecked_ensures s (by simpa using h1)

theorem storeUnchecked_ensures {w : Nat} (v : Vector α w) (l : List α) (o : Nat) :
    (Packed.storeUnchecked c v l o).Ensures fun r => o + w ≤ l.length ∧ r.length = l.length := by
  simp only [Packed.storeUnchecked, hd, if_true]
  refine ensures_bind (sliceFrom_ensures l o) fun s _ hs => ?_
  refine ensures_bind (assert_ensures _) fun _ _ h1 => ?_
  refine ensures_bind (sliceFrom_ensures l o) fun s2 _ hs2 => ?_
  have h2 : w ≤ s2.length := by
    rw [hs2.2, ← hs.2]
    simpa using h1
  rw [if_pos h2]
  rw [hs2.2, List.length_drop] at h2
  exact ⟨by omega, splice_length _ _ _ (by simp; omega)⟩

theorem extractUnchecked_ensures {w : Nat} (v : Vector α w) (i : Nat) :
    (Packed.extractUnchecked c v i).Ensures fun _ => i < w := by
  simp only [Packed.extractUnchecked]
  refine ensures_bind (debugAssert_ensures hd _) fun _ _ h => ?_
  have h : i < w := by simpa using h
  rw [dif_pos h]
  exact h

theorem replaceUnchecked_ensures {w : Nat} (v : Vector α w) (i : Nat) (x : α) :
    (Packed.replaceUnchecked c v i x).Ensures fun _ => i < w := by
  simp only [Packed.replaceUnchecked]
  refine ensures_bind (debugAssert_ensures hd _) fun _ _ h => ?_
  have h : i < w := by simpa using h
  rw [dif_pos h]
  exact h

theorem mergeLoop_ensures {w : Nat} (other : Vector α w) : ∀ (n i : Nat) (ret : Vector α w),
    (Packed.mergeLoop c other n i ret).Ensures fun _ => True := by
  intro n
  induction n with
  | zero => intro i ret; trivial
  | succ n ih =>
    intro i ret
    simp only [Packed.mergeLoop]
    refine ensures_bind (extractUnchecked_ensures hd other i) fun x _ _ => ?_
    exact ensures_bind (replaceUnchecked_ensures hd ret i x) fun r _ _ => ih (i + 1) r

theorem mergePartitioned_ensures {w : Nat} (a b : Vector α w) (o : Nat) :
    (Packed.mergePartitioned c a b o).Ensures fun _ => True := by
  simp only [Packed.mergePartitioned]
  exact ensures_bind (assert_ensures _) fun _ _ _ => mergeLoop_ensures hd b _ _ _

end Logic

/-! ### Arrays and iterators -/

/-- Every access to an array is safe in the build `c`. -/
structure SafeArray {A α : Type} {w : Nat} [SIMDSized A] [SIMDArray A α w] (c : Cfg) (Q : A → Prop) :
    Prop where
  scalarLen : ∀ a, Q a → (scalarLen c a).Ensures fun _ => True
  load : ∀ a o, Q a → (SIMDArray.load c a o).Ensures fun _ => True
  loadUnchecked : ∀ a o, Q a → (SIMDArray.loadUnchecked c a o).Ensures fun _ => True
  loadScalar : ∀ a o, Q a → (SIMDArray.loadScalar c a o).Ensures fun _ => True
  loadScalarUnchecked : ∀ a o, Q a → (SIMDArray.loadScalarUnchecked c a o).Ensures fun _ => True

/-- The length reported does not grow. -/
def LenLe {I α : Type} {w : Nat} [SIMDSized I] [SIMDIterable I α w] (c : Cfg) (it it' : I) : Prop :=
  ∀ m, (len c it).Ensures (· ≤ m) → (len c it').Ensures (· ≤ m)

/-- Every method of `SIMDIterable` is safe in the build `c`. -/
structure SafeIterable {I α : Type} {w : Nat} [SIMDSized I] [SIMDIterable I α w] (c : Cfg)
    (P : I → Prop) : Prop where
  scalarLen : ∀ it, P it → (scalarLen c it).Ensures fun _ => True
  next : ∀ it, P it → (next c it).Ensures fun r => P r.2 ∧ LenLe c it r.2
  len : ∀ it, P it → (len c it).Ensures fun _ => True
  scalarPos : ∀ it, P it → (scalarPos c it).Ensures fun _ => True
  advance : ∀ it k, P it → (advance c it k).Ensures fun it' => P it' ∧ LenLe c it it'
  vectorPos : ∀ it, P it → (vectorPos c it).Ensures fun _ => True
  vecLen : ∀ it, P it → (vecLen c it).Ensures fun _ => True

/-- Every method of `SIMDIterator` is safe in the build `c`. -/
structure SafeIter {I α : Type} {w : Nat} [SIMDSized I] [SIMDIterator I α w] (c : Cfg)
    (P : I → Prop) : Prop extends SafeIterable c P where
  end_ : ∀ it, P it → (end_ c it).Ensures fun r => P r.2 ∧ LenLe c it r.2

theorem finalize_ensures {I α : Type} {w : Nat} [SIMDSized I] [SIMDIterable I α w] {c : Cfg}
    (hd : c.debug = true) {P : I → Prop} (h : SafeIterable c P) (it : I) (hp : P it) :
    (finalize c it).Ensures fun it' => P it' ∧ LenLe c it it' := by
  simp only [finalize]
  refine ensures_bind (h.scalarLen it hp) fun len _ _ => ?_
  refine ensures_bind (h.scalarPos it hp) fun pos _ _ => ?_
  refine ensures_bind (usub_ensures hd len pos) fun e _ _ => ?_
  exact h.advance it e hp

section Blanket
variable {T α : Type} {w : Nat} [SIMDSized T] [SIMDIterable T α w] [SIMDArray T α w] {c : Cfg}
  (hd : c.debug = true) {P : T → Prop} (h : SafeIterable c P) (ha : SafeArray c P)
include hd ha

omit [SIMDIterable T α w] in
theorem elementLoop_ensures (t : T) (hp : P t) (emptyAmt : Nat) : ∀ (n i : Nat) (ret : Vector α w),
    (elementLoop c t emptyAmt n i ret).Ensures fun _ => True := by
  intro n
  induction n with
  | zero => intro i ret; trivial
  | succ n ih =>
    intro i ret
    simp only [elementLoop]
    refine ensures_bind (uadd_ensures hd i emptyAmt) fun idx _ _ => ?_
    refine ensures_bind (ha.loadScalarUnchecked t i hp) fun x _ _ => ?_
    exact ensures_bind (replaceUnchecked_ensures hd ret idx x) fun r _ _ => ih (i + 1) r

theorem endVec_ensures (t : T) (hp : P t) (len pos emptyAmt : Nat) :
    (endVec c t len pos emptyAmt).Ensures fun _ => True := by
  simp only [endVec]
  refine ensures_ite (fun _ => ?_) (fun _ => elementLoop_ensures hd ha t hp _ _ _ _)
  refine ensures_bind (usub_ensures hd len w) fun o _ _ => ?_
  refine ensures_bind (ha.loadUnchecked t o hp) fun r _ _ => ?_
  exact mergePartitioned_ensures hd _ _ _

include h in
theorem blanketEnd_ensures (t : T) (hp : P t) :
    (blanketEnd c t).Ensures fun r => P r.2 ∧ LenLe c t r.2 := by
  simp only [blanketEnd]
  refine ensures_bind (h.scalarPos t hp) fun pos _ _ => ?_
  refine ensures_bind (h.scalarLen t hp) fun len _ _ => ?_
  refine ensures_ite (fun _ => ?_) (fun _ => ?_)
  · refine ensures_bind (usub_ensures hd len pos) fun x _ _ => ?_
    refine ensures_bind (usub_ensures hd w x) fun e _ _ => ?_
    refine ensures_bind (endVec_ensures hd ha t hp _ _ _) fun ret _ _ => ?_
    exact ensures_bind (finalize_ensures hd h t hp) fun t' _ ht => ht
  · exact ⟨hp, fun _ h => h⟩

include h in
theorem nextUnchecked_ensures (t : T) (hp : P t) (o : Nat) :
    (nextUnchecked c t o).Ensures fun _ => True := by
  simp only [nextUnchecked, hd, if_true]
  refine ensures_bind (uadd_ensures hd o w) fun e _ _ => ?_
  refine ensures_bind (h.scalarLen t hp) fun len _ _ => ?_
  exact ensures_bind (assert_ensures _) fun _ _ _ => ha.loadUnchecked t o hp

include h in
theorem endUnchecked_ensures (t : T) (hp : P t) (o e : Nat) :
    (endUnchecked c t o e).Ensures fun _ => True := by
  simp only [endUnchecked, hd, if_true]
  refine ensures_bind (h.scalarLen t hp) fun len _ _ => ?_
  refine ensures_bind (debugAssert_ensures hd _) fun _ _ _ => ?_
  refine ensures_bind (usub_ensures hd len o) fun x _ _ => ?_
  refine ensures_bind (usub_ensures hd w x) fun y _ _ => ?_
  exact ensures_bind (assert_ensures _) fun _ _ _ => endVec_ensures hd ha t hp _ _ _

end Blanket

theorem lenLe_of_eq {I α : Type} {w : Nat} [SIMDSized I] [SIMDIterable I α w] {c : Cfg} {it it' : I}
    (h : len c it' = len c it) : LenLe c it it' := fun m h1 => by rw [h]; exact h1

theorem LenLe.trans {I α : Type} {w : Nat} [SIMDSized I] [SIMDIterable I α w] {c : Cfg}
    {a b d : I} (h1 : LenLe c a b) (h2 : LenLe c b d) : LenLe c a d := fun m h => h2 m (h1 m h)

/-! ### Slices -/

/-- **C79**: slices. -/
theorem C79_slice {α : Type} {w : Nat} {c : Cfg} (hd : c.debug = true) :
    SafeArray c (fun _ : Slice α w => True) where
  scalarLen _ _ := trivial
  load a o _ := load_ensures a.elems o
  loadUnchecked a o _ := by
    simp only [SIMDArray.loadUnchecked, hd, if_true]
    refine ensures_bind (sliceFrom_ensures _ _) fun s _ _ => ?_
    refine ensures_bind (assert_ensures _) fun _ _ _ => ?_
    exact (loadUnchecked_ensures hd a.elems o).mono fun _ _ _ => trivial
  loadScalar a o _ := (index_ensures a.elems o).mono fun _ _ _ => trivial
  loadScalarUnchecked a o _ := by
    simp only [SIMDArray.loadScalarUnchecked]
    refine ensures_bind (debugAssert_ensures hd _) fun _ _ h => ?_
    rw [getUnchecked_ok (by simpa using h)]
    trivial

section SIMDIter
variable {A α : Type} {w : Nat} [SIMDSized A] [SIMDArray A α w] {c : Cfg}

theorem simdIter_safeArray {Q : A → Prop} (ha : SafeArray c Q) :
    SafeArray c (fun it : SIMDIter A α w => Q it.data) where
  scalarLen it h := ha.scalarLen it.data h
  load it o h := ha.load it.data o h
  loadUnchecked it o h := ha.loadUnchecked it.data o h
  loadScalar it o h := ha.loadScalar it.data o h
  loadScalarUnchecked it o h := ha.loadScalarUnchecked it.data o h

theorem simdIter_safeIterable (hd : c.debug = true) {Q : A → Prop} (ha : SafeArray c Q) :
    SafeIterable c (fun it : SIMDIter A α w => Q it.data) where
  scalarLen it h := ha.scalarLen it.data h
  next it h := by
    simp only [SIMDIterable.next, SIMDIter.next, SIMDIter.advance]
    refine ensures_bind (uadd_ensures hd _ _) fun e _ _ => ?_
    refine ensures_bind (ha.scalarLen it.data h) fun len _ _ => ?_
    refine ensures_ite (fun _ => ?_) (fun _ => ⟨h, lenLe_of_eq rfl⟩)
    refine ensures_bind (ha.loadUnchecked it.data _ h) fun r _ _ => ?_
    simp only [bind_assoc]
    exact ensures_bind (uadd_ensures hd _ _) fun p _ _ => ⟨h, lenLe_of_eq rfl⟩
  len it h := by
    simp only [SIMDIterable.len]
    exact ensures_bind (ha.scalarLen it.data h) fun len _ _ =>
      (udiv_ensures _ _).mono fun _ _ _ => trivial
  scalarPos it _ := trivial
  advance it k h := by
    simp only [SIMDIterable.advance, SIMDIter.advance]
    exact ensures_bind (uadd_ensures hd _ _) fun p _ _ => ⟨h, lenLe_of_eq rfl⟩
  vectorPos it _ := (udiv_ensures _ _).mono fun _ _ _ => trivial
  vecLen it h := ensures_bind (ha.scalarLen it.data h) fun _ _ _ =>
    (udiv_ensures _ _).mono fun _ _ _ => trivial

/-- **C79**: iterators over arrays which are safe (slices, strided views). -/
theorem C79_iter (hd : c.debug = true) {Q : A → Prop} (ha : SafeArray c Q) :
    SafeIter c (fun it : SIMDIter A α w => Q it.data) where
  toSafeIterable := simdIter_safeIterable hd ha
  end_ it h := blanketEnd_ensures hd (simdIter_safeIterable hd ha) (simdIter_safeArray ha) it h

end SIMDIter

/-! ### Strides -/

section Stride
variable {A α : Type} {w : Nat} [SIMDSized A] [SIMDArray A α w] [Packable α] {c : Cfg}

omit [Packable α] in
theorem strideLoop_ensures {Q : A → Prop} (ha : SafeArray c Q) (a : A) (hq : Q a)
    (idx : Nat → Res Nat) (hidx : ∀ i, (idx i).Ensures fun _ => True) :
    ∀ (n i : Nat) (ret : Vector α w), (strideLoop c a idx n i ret).Ensures fun _ => True := by
  intro n
  induction n with
  | zero => intro i ret; trivial
  | succ n ih =>
    intro i ret
    simp only [strideLoop]
    refine ensures_bind (hidx i) fun j _ _ => ?_
    refine ensures_bind (ha.loadScalarUnchecked a j hq) fun x _ _ => ?_
    refine ensures_bind (Q := fun _ => True) ?_ fun r _ _ => ih (i + 1) r
    unfold Packed.replace
    split <;> trivial

theorem strideLoadUnchecked_ensures (hd : c.debug = true) {Q : A → Prop} (ha : SafeArray c Q)
    (s : PackedStride A α w) (hq : Q s.iter) (o : Nat) :
    (PackedStride.loadUnchecked c s o).Ensures fun _ => True := by
  simp only [PackedStride.loadUnchecked, hd, if_true]
  refine ensures_bind (usub_ensures hd _ _) fun _ _ _ => ?_
  refine ensures_bind (umul_ensures hd _ _) fun _ _ _ => ?_
  refine ensures_bind (uadd_ensures hd _ _) fun _ _ _ => ?_
  refine ensures_bind (ha.scalarLen s.iter hq) fun _ _ _ => ?_
  refine ensures_bind (assert_ensures _) fun _ _ _ => ?_
  refine strideLoop_ensures ha s.iter hq _ (fun i => ?_) _ _ _
  refine ensures_bind (uadd_ensures hd _ _) fun _ _ _ => ?_
  refine ensures_bind (umul_ensures hd _ _) fun _ _ _ => ?_
  exact (uadd_ensures hd _ _).mono fun _ _ _ => trivial

/-- **C79**: strided views as arrays. -/
theorem C79_stride_array (hd : c.debug = true) {Q : A → Prop} (ha : SafeArray c Q) :
    SafeArray c (fun s : PackedStride A α w => Q s.iter) where
  scalarLen s h := ensures_bind (ha.scalarLen s.iter h) fun _ _ _ =>
    (udiv_ensures _ _).mono fun _ _ _ => trivial
  load s o h := by
    simp only [SIMDArray.load, PackedStride.load]
    refine ensures_bind (usub_ensures hd _ _) fun _ _ _ => ?_
    refine ensures_bind (uadd_ensures hd _ _) fun _ _ _ => ?_
    refine ensures_bind (umul_ensures hd _ _) fun _ _ _ => ?_
    refine ensures_bind (uadd_ensures hd _ _) fun _ _ _ => ?_
    refine ensures_bind (ha.scalarLen s.iter h) fun _ _ _ => ?_
    exact ensures_bind (assert_ensures _) fun _ _ _ => strideLoadUnchecked_ensures hd ha s h o
  loadUnchecked s o h := strideLoadUnchecked_ensures hd ha s h o
  loadScalar s o h := by
    simp only [SIMDArray.loadScalar]
    refine ensures_bind (umul_ensures hd _ _) fun _ _ _ => ?_
    exact ensures_bind (uadd_ensures hd _ _) fun _ _ _ => ha.loadScalar s.iter _ h
  loadScalarUnchecked s o h := by
    simp only [SIMDArray.loadScalarUnchecked]
    refine ensures_bind (umul_ensures hd _ _) fun _ _ _ => ?_
    exact ensures_bind (uadd_ensures hd _ _) fun _ _ _ => ha.loadScalarUnchecked s.iter _ h

theorem strideAdvance_ensures (hd : c.debug = true) {Q : A → Prop} (s : PackedStride A α w)
    (hq : Q s.iter) (k : Nat) :
    (PackedStride.advance c s k).Ensures fun s' => Q s'.iter ∧ LenLe c s s' := by
  simp only [PackedStride.advance]
  refine ensures_bind (umul_ensures hd _ _) fun _ _ _ => ?_
  exact ensures_bind (uadd_ensures hd _ _) fun _ _ _ => ⟨hq, lenLe_of_eq rfl⟩

theorem stride_safeIterable (hd : c.debug = true) {Q : A → Prop} (ha : SafeArray c Q) :
    SafeIterable c (fun s : PackedStride A α w => Q s.iter) where
  scalarLen s h := (C79_stride_array hd ha).scalarLen s h
  next s h := by
    simp only [SIMDIterable.next, PackedStride.next]
    refine ensures_bind (umul_ensures hd _ _) fun _ _ _ => ?_
    refine ensures_bind (uadd_ensures hd _ _) fun _ _ _ => ?_
    refine ensures_bind (ha.scalarLen s.iter h) fun _ _ _ => ?_
    refine ensures_ite (fun _ => ?_) (fun _ => ⟨h, lenLe_of_eq rfl⟩)
    refine ensures_bind (strideLoop_ensures ha s.iter h _ (fun i => ?_) _ _ _) fun _ _ _ => ?_
    · refine ensures_bind (umul_ensures hd _ _) fun _ _ _ => ?_
      exact (uadd_ensures hd _ _).mono fun _ _ _ => trivial
    · exact ensures_bind (strideAdvance_ensures hd s h w) fun _ _ h2 => h2
  len s h := by
    simp only [SIMDIterable.len, vectorLen, bind_assoc]
    refine ensures_bind (ha.scalarLen s.iter h) fun _ _ _ => ?_
    refine ensures_bind (udiv_ensures _ _) fun _ _ _ => ?_
    exact (udiv_ensures _ _).mono fun _ _ _ => trivial
  scalarPos s h := by
    simp only [SIMDIterable.scalarPos]
    refine ensures_bind (usub_ensures hd _ _) fun _ _ _ => ?_
    exact (udiv_ensures _ _).mono fun _ _ _ => trivial
  advance s k h := strideAdvance_ensures hd s h k
  vectorPos s h := by
    simp only [SIMDIterable.vectorPos]
    refine ensures_bind (usub_ensures hd _ _) fun _ _ _ => ?_
    refine ensures_bind (umul_ensures hd _ _) fun _ _ _ => ?_
    exact (udiv_ensures _ _).mono fun _ _ _ => trivial
  vecLen s h := ensures_bind ((C79_stride_array hd ha).scalarLen s h) fun _ _ _ =>
    (udiv_ensures _ _).mono fun _ _ _ => trivial

/-- **C79**: strided iterators over safe arrays. -/
theorem C79_stride (hd : c.debug = true) {Q : A → Prop} (ha : SafeArray c Q) :
    SafeIter c (fun s : PackedStride A α w => Q s.iter) where
  toSafeIterable := stride_safeIterable hd ha
  end_ s h := blanketEnd_ensures hd (stride_safeIterable hd ha) (C79_stride_array hd ha) s h

end Stride

/-! ### Maps -/

section Map
variable {I σ α β : Type} {w w' : Nat} [SIMDSized I] [SIMDIterator I α w] [Packable α] [Packable β]
  {c : Cfg}

/-- The closure has no undefined behaviour of its own. -/
def SafeFn {σ α β : Type} (f : FnMut σ α β) : Prop := ∀ st v, (f st v).isSafe

omit [SIMDSized I] [SIMDIterator I α w] [Packable α] [Packable β] in
theorem safeFn_ensures {σ α β : Type} {f : FnMut σ α β} (h : SafeFn f) (st : σ) (v : α) :
    (f st v).Ensures fun _ => True := by
  have := h st v
  cases h2 : f st v <;> simp_all [Res.isSafe, Res.Ensures]

/-- **C79**: maps with a safe closure. -/
theorem C79_map (hd : c.debug = true) {P : I → Prop} (h : SafeIter c P) :
    SafeIter c (fun m : SIMDMap I σ α w β w' => P m.iter ∧ SafeFn m.func) where
  scalarLen m hm := h.len m.iter hm.1
  next m hm := by
    simp only [SIMDIterable.next, SIMDMap.next]
    refine ensures_bind (h.next m.iter hm.1) fun r _ hr => ?_
    obtain ⟨r, it⟩ := r
    cases r with
    | none => exact ⟨⟨hr.1, hm.2⟩, hr.2⟩
    | some v =>
      exact ensures_bind (safeFn_ensures hm.2 _ _) fun _ _ _ => ⟨⟨hr.1, hm.2⟩, hr.2⟩
  len m hm := h.len m.iter hm.1
  scalarPos m hm := h.scalarPos m.iter hm.1
  advance m k hm := by
    simp only [SIMDIterable.advance]
    exact ensures_bind (h.advance m.iter k hm.1) fun _ _ h2 => ⟨⟨h2.1, hm.2⟩, h2.2⟩
  vectorPos m hm := ensures_bind (h.scalarPos m.iter hm.1) fun _ _ _ =>
    (udiv_ensures _ _).mono fun _ _ _ => trivial
  vecLen m hm := ensures_bind (h.len m.iter hm.1) fun _ _ _ =>
    (udiv_ensures _ _).mono fun _ _ _ => trivial
  end_ m hm := by
    simp only [SIMDIterator.end_, SIMDMap.end_]
    refine ensures_bind (h.end_ m.iter hm.1) fun r _ hr => ?_
    obtain ⟨r, it⟩ := r
    cases r with
    | none => exact ⟨⟨hr.1, hm.2⟩, hr.2⟩
    | some vn =>
      refine ensures_bind (umul_ensures hd _ _) fun _ _ _ => ?_
      refine ensures_bind (udiv_ensures _ _) fun _ _ _ => ?_
      exact ensures_bind (safeFn_ensures hm.2 _ _) fun _ _ _ => ⟨⟨hr.1, hm.2⟩, hr.2⟩

end Map

/-! ### The scalar adapter -/

section Adapter
variable {α : Type} {w : Nat} {c : Cfg}

theorem adapterNextLoop_ensures (hd : c.debug = true) : ∀ (n o : Nat) (a : SIMDAdapter α w),
    (SIMDAdapter.nextLoop c n o a).Ensures fun a' => a'.iter.length ≤ a.iter.length := by
  intro n
  induction n with
  | zero => intro o a; exact Nat.le_refl _
  | succ n ih =>
    intro o a
    simp only [SIMDAdapter.nextLoop]
    cases h : a.iter with
    | nil => trivial
    | cons x rest =>
      refine ensures_bind (replaceUnchecked_ensures hd _ _ _) fun s _ _ => ?_
      refine (ih (o + 1) _).mono fun a' _ h2 => ?_
      simp only [List.length_cons] at h2 ⊢
      omega

theorem adapterEndLoop_ensures (hd : c.debug = true) : ∀ (l : List α) (o : Nat) (s : Vector α w),
    (SIMDAdapter.endLoop c l o s).Ensures fun _ => True := by
  intro l
  induction l with
  | nil => intro o s; trivial
  | cons x rest ih =>
    intro o s
    simp only [SIMDAdapter.endLoop]
    refine ensures_bind (replaceUnchecked_ensures hd _ _ _) fun s _ _ => ?_
    exact ensures_bind (usub_ensures hd _ _) fun _ _ _ => ih _ _

theorem adapter_lenLe {a a' : SIMDAdapter α w} (h : a'.iter.length ≤ a.iter.length) :
    LenLe c a a' := by
  intro m hm
  simp only [SIMDIterable.len, udiv] at hm ⊢
  by_cases hw : w = 0
  · rw [if_pos hw]; trivial
  · rw [if_neg hw] at hm ⊢
    exact Nat.le_trans (Nat.div_le_div_right h) hm

theorem adapter_safeIterable (hd : c.debug = true) :
    SafeIterable c (fun _ : SIMDAdapter α w => True) where
  scalarLen _ _ := trivial
  next a _ := by
    simp only [SIMDIterable.next, SIMDAdapter.next, SIMDAdapter.advance]
    refine ensures_bind (uadd_ensures hd _ _) fun _ _ _ => ?_
    refine ensures_bind (Q := fun _ => True) trivial fun _ _ _ => ?_
    refine ensures_ite (fun _ => ?_) (fun _ => ⟨trivial, lenLe_of_eq rfl⟩)
    refine ensures_bind (adapterNextLoop_ensures hd _ _ _) fun a' _ ha => ?_
    simp only [bind_assoc]
    exact ensures_bind (uadd_ensures hd _ _) fun _ _ _ => ⟨trivial, adapter_lenLe ha⟩
  len a _ := (udiv_ensures _ _).mono fun _ _ _ => trivial
  scalarPos _ _ := trivial
  advance a k _ := by
    simp only [SIMDIterable.advance, SIMDAdapter.advance]
    exact ensures_bind (uadd_ensures hd _ _) fun _ _ _ => ⟨trivial, lenLe_of_eq rfl⟩
  vectorPos a _ := (udiv_ensures _ _).mono fun _ _ _ => trivial
  vecLen a _ := (udiv_ensures _ _).mono fun _ _ _ => trivial

/-- **C79**: the adapter of scalar iterators. -/
theorem C79_adapter (hd : c.debug = true) : SafeIter c (fun _ : SIMDAdapter α w => True) where
  toSafeIterable := adapter_safeIterable hd
  end_ a _ := by
    simp only [SIMDIterator.end_, SIMDAdapter.end_]
    refine ensures_bind (Q := fun _ => True) trivial fun _ _ _ => ?_
    refine ensures_ite (fun _ => ?_) (fun _ => ⟨trivial, lenLe_of_eq rfl⟩)
    refine ensures_bind (usub_ensures hd _ _) fun _ _ _ => ?_
    refine ensures_bind (adapterEndLoop_ensures hd _ _ _) fun r _ _ => ?_
    refine ensures_bind (finalize_ensures hd (adapter_safeIterable hd) _ trivial) fun a' _ ha => ?_
    exact ⟨trivial, (adapter_lenLe (Nat.zero_le _)).trans ha.2⟩

end Adapter

/-! ### Zips -/

/-- The followers of a zip are safe in the build `c`. -/
structure SafeRest {R γ : Type} [ZipRest R γ] (c : Cfg) (S : R → Prop) : Prop where
  lenDiffers : ∀ r n, S r → (ZipRest.lenDiffers c r n).Ensures fun _ => True
  nextAll : ∀ r p, S r → (ZipRest.nextAll c r p).Ensures fun _ => True
  endAll : ∀ r p n, S r → (ZipRest.endAll c r p n).Ensures fun _ => True

theorem C79_rest_nil {c : Cfg} : SafeRest c (fun _ : Unit => True) where
  lenDiffers _ _ _ := trivial
  nextAll _ _ _ := trivial
  endAll _ _ _ _ := trivial

/-- **C79**: one more follower of a zip. -/
theorem C79_rest_cons {T R α γ : Type} {w : Nat} [SIMDSized T] [SIMDIterable T α w]
    [SIMDArray T α w] [ZipRest R γ] {c : Cfg} (hd : c.debug = true) {P : T → Prop} {S : R → Prop}
    (h : SafeIterable c P) (ha : SafeArray c P) (hs : SafeRest c S) :
    SafeRest c (fun r : T × R => P r.1 ∧ S r.2) where
  lenDiffers r n hr := by
    simp only [ZipRest.lenDiffers]
    refine ensures_bind (h.len r.1 hr.1) fun _ _ _ => ?_
    exact ensures_ite (fun _ => trivial) (fun _ => hs.lenDiffers _ _ hr.2)
  nextAll r p hr := by
    simp only [ZipRest.nextAll]
    refine ensures_bind (nextUnchecked_ensures hd h ha r.1 hr.1 p) fun _ _ _ => ?_
    exact ensures_bind (hs.nextAll r.2 p hr.2) fun _ _ _ => trivial
  endAll r p n hr := by
    simp only [ZipRest.endAll]
    refine ensures_bind (endUnchecked_ensures hd h ha r.1 hr.1 p n) fun _ _ _ => ?_
    exact ensures_bind (hs.endAll r.2 p n hr.2) fun _ _ _ => trivial

/-- The length reported by a zip does not grow. -/
def ZLenLe {Z γ : Type} [SIMDZippedIterator Z γ] (c : Cfg) (z z' : Z) : Prop :=
  ∀ m, (SIMDZippedIterator.len c z).Ensures (· ≤ m) → (SIMDZippedIterator.len c z').Ensures (· ≤ m)

/-- Every method of a zip is safe in the build `c`. -/
structure SafeZip {Z γ : Type} [SIMDZippedIterator Z γ] (c : Cfg) (P : Z → Prop) : Prop where
  next : ∀ z, P z → (SIMDZippedIterator.next c z).Ensures fun r => P r.2 ∧ ZLenLe c z r.2
  end_ : ∀ z, P z → (SIMDZippedIterator.end_ c z).Ensures fun r => P r.2 ∧ ZLenLe c z r.2
  len : ∀ z, P z → (SIMDZippedIterator.len c z).Ensures fun _ => True
  scalarPos : ∀ z, P z → (SIMDZippedIterator.scalarPos c z).Ensures fun _ => True
  scalarLen : ∀ z, P z → (SIMDZippedIterator.scalarLen c z).Ensures fun _ => True
  advance : ∀ z k, P z → (SIMDZippedIterator.advance c z k).Ensures fun z' => P z' ∧ ZLenLe c z z'
  vectorPos : ∀ z, P z → (SIMDZippedIterator.vectorPos c z).Ensures fun _ => True
  vectorLen : ∀ z, P z → (SIMDZippedIterator.vectorLen c z).Ensures fun _ => True

section Zip
variable {I R α γ : Type} {w : Nat} [SIMDSized I] [SIMDIterator I α w] [Packable α] [ZipRest R γ]
  {c : Cfg}

omit [Packable α] in
/-- **C79**: the constructor of zips. -/
theorem C79_zip_new {P : I → Prop} {S : R → Prop} (h : SafeIter c P) (hs : SafeRest c S)
    (it : I) (r : R) (hp : P it) (hr : S r) :
    (zip c it r).Ensures fun z => P z.first ∧ S z.rest := by
  simp only [zip]
  refine ensures_bind (h.len it hp) fun _ _ _ => ?_
  refine ensures_bind (hs.lenDiffers r _ hr) fun b _ _ => ?_
  exact ensures_ite (fun _ => trivial) (fun _ => ⟨hp, hr⟩)

/-- **C79**: zips of safe iterators. -/
theorem C79_zip {P : I → Prop} {S : R → Prop} (h : SafeIter c P) (hs : SafeRest c S) :
    SafeZip c (fun z : Zip I R => P z.first ∧ S z.rest) where
  next z hz := by
    simp only [SIMDZippedIterator.next, Zip.next]
    refine ensures_bind (h.scalarPos z.first hz.1) fun pos _ _ => ?_
    refine ensures_bind (h.next z.first hz.1) fun r _ hr => ?_
    obtain ⟨r, it⟩ := r
    cases r with
    | none => exact ⟨⟨hr.1, hz.2⟩, hr.2⟩
    | some v => exact ensures_bind (hs.nextAll z.rest pos hz.2) fun _ _ _ => ⟨⟨hr.1, hz.2⟩, hr.2⟩
  end_ z hz := by
    simp only [SIMDZippedIterator.end_, Zip.end_]
    refine ensures_bind (h.scalarPos z.first hz.1) fun pos _ _ => ?_
    refine ensures_bind (h.end_ z.first hz.1) fun r _ hr => ?_
    obtain ⟨r, it⟩ := r
    cases r with
    | none => exact ⟨⟨hr.1, hz.2⟩, hr.2⟩
    | some v => exact ensures_bind (hs.endAll z.rest pos _ hz.2) fun _ _ _ => ⟨⟨hr.1, hz.2⟩, hr.2⟩
  len z hz := h.len z.first hz.1
  scalarPos z hz := h.scalarPos z.first hz.1
  scalarLen z hz := h.len z.first hz.1
  advance z k hz := by
    simp only [SIMDZippedIterator.advance]
    exact ensures_bind (h.advance z.first k hz.1) fun _ _ h2 => ⟨⟨h2.1, hz.2⟩, h2.2⟩
  vectorPos z hz := ensures_bind (h.scalarPos z.first hz.1) fun _ _ _ =>
    (udiv_ensures _ _).mono fun _ _ _ => trivial
  vectorLen z hz := ensures_bind (h.len z.first hz.1) fun _ _ _ =>
    (udiv_ensures _ _).mono fun _ _ _ => trivial

theorem strideZip_lenLe {z : StrideZip I α w} {it' : I} (h : LenLe c z.iter it') (p : Option _) :
    ZLenLe c z { z with peek := p, iter := it' } := by
  intro m hm
  simp only [SIMDZippedIterator.len] at hm ⊢
  have h1 : (SIMDIterable.len c z.iter).Ensures (· ≤ 2 * m + 1) := by
    cases h2 : SIMDIterable.len c z.iter with
    | ok x => rw [h2] at hm; simp only [ok_bind, Res.Ensures] at hm ⊢; omega
    | ub => rw [h2] at hm; exact hm
    | _ => trivial
  refine ensures_bind (h _ h1) fun x _ hx => ?_
  exact ensures_ok (by omega)

/-- **C79**: `stride_zip` of safe iterators. -/
theorem C79_stride_zip (hd : c.debug = true) {P : I → Prop} (h : SafeIter c P) :
    SafeZip c (fun z : StrideZip I α w => P z.iter) where
  next z hz := by
    simp only [SIMDZippedIterator.next, StrideZip.next]
    refine ensures_bind (h.next z.iter hz) fun r _ hr => ?_
    obtain ⟨r, it⟩ := r
    cases r with
    | none => exact ⟨hr.1, strideZip_lenLe hr.2 _⟩
    | some v =>
      refine ensures_bind (h.next it hr.1) fun r2 _ hr2 => ?_
      obtain ⟨r2, it2⟩ := r2
      cases r2 with
      | none => exact ⟨hr2.1, strideZip_lenLe (hr.2.trans hr2.2) _⟩
      | some v => exact ⟨hr2.1, strideZip_lenLe (hr.2.trans hr2.2) _⟩
  end_ z hz := by
    simp only [SIMDZippedIterator.end_, StrideZip.end_]
    refine ensures_bind (h.next z.iter hz) fun r _ hr => ?_
    obtain ⟨r, it⟩ := r
    refine ensures_bind (h.end_ it hr.1) fun r2 _ hr2 => ?_
    obtain ⟨r2, it2⟩ := r2
    have hl := hr.2.trans hr2.2
    cases r with
    | some v =>
      exact ensures_bind (uadd_ensures hd _ _) fun _ _ _ => ⟨hr2.1, strideZip_lenLe hl _⟩
    | none =>
      cases hpk : z.peek with
      | some v =>
        exact ensures_bind (uadd_ensures hd _ _) fun _ _ _ => ⟨hr2.1, strideZip_lenLe hl _⟩
      | none =>
        exact ensures_ite (fun _ => ⟨hr2.1, strideZip_lenLe hl _⟩)
          (fun _ => ⟨hr2.1, strideZip_lenLe hl _⟩)
  len z hz := ensures_bind (h.len z.iter hz) fun _ _ _ => trivial
  scalarPos z hz := by
    simp only [SIMDZippedIterator.scalarPos]
    refine ensures_bind (h.scalarPos z.iter hz) fun _ _ _ => ?_
    exact ensures_bind (usub_ensures hd _ _) fun _ _ _ => trivial
  scalarLen z hz := ensures_bind (h.scalarLen z.iter hz) fun _ _ _ => trivial
  advance z k hz := by
    simp only [SIMDZippedIterator.advance]
    refine ensures_bind (umul_ensures hd _ _) fun _ _ _ => ?_
    exact ensures_bind (h.advance z.iter _ hz) fun _ _ h2 => ⟨h2.1, strideZip_lenLe h2.2 _⟩
  vectorPos z hz := by
    simp only [SIMDZippedIterator.vectorPos]
    refine ensures_bind (h.vectorPos z.iter hz) fun _ _ _ => ?_
    refine ensures_bind (udiv_ensures _ _) fun _ _ _ => ?_
    exact ensures_bind (usub_ensures hd _ _) fun _ _ _ => trivial
  vectorLen z hz := by
    simp only [SIMDZippedIterator.vectorLen, bind_assoc, ok_bind]
    exact ensures_bind (h.scalarLen z.iter hz) fun _ _ _ =>
      (udiv_ensures _ _).mono fun _ _ _ => trivial

end Zip

/-- **C79**: maps of zips. -/
theorem C79_zip_map {Z σ γ β : Type} {w' : Nat} [SIMDZippedIterator Z γ] [Packable β] {c : Cfg}
    (hd : c.debug = true) {P : Z → Prop} (h : SafeZip c P) :
    SafeIter c (fun m : SIMDZipMap Z σ γ β w' => P m.iter ∧ SafeFn m.func) where
  scalarLen m hm := h.scalarLen m.iter hm.1
  next m hm := by
    simp only [SIMDIterable.next, SIMDZipMap.next]
    refine ensures_bind (h.next m.iter hm.1) fun r _ hr => ?_
    obtain ⟨r, it⟩ := r
    cases r with
    | none => exact ⟨⟨hr.1, hm.2⟩, hr.2⟩
    | some v =>
      exact ensures_bind (safeFn_ensures hm.2 _ _) fun _ _ _ => ⟨⟨hr.1, hm.2⟩, hr.2⟩
  len m hm := h.len m.iter hm.1
  scalarPos m hm := h.scalarPos m.iter hm.1
  advance m k hm := by
    simp only [SIMDIterable.advance]
    exact ensures_bind (h.advance m.iter k hm.1) fun _ _ h2 => ⟨⟨h2.1, hm.2⟩, h2.2⟩
  vectorPos m hm := ensures_bind (h.scalarPos m.iter hm.1) fun _ _ _ =>
    (udiv_ensures _ _).mono fun _ _ _ => trivial
  vecLen m hm := h.vectorLen m.iter hm.1
  end_ m hm := by
    simp only [SIMDIterator.end_, SIMDZipMap.end_]
    refine ensures_bind (h.end_ m.iter hm.1) fun r _ hr => ?_
    obtain ⟨r, it⟩ := r
    cases r with
    | none => exact ⟨⟨hr.1, hm.2⟩, hr.2⟩
    | some vn =>
      refine ensures_bind (umul_ensures hd _ _) fun _ _ _ => ?_
      refine ensures_bind (udiv_ensures _ _) fun _ _ _ => ?_
      exact ensures_bind (safeFn_ensures hm.2 _ _) fun _ _ _ => ⟨⟨hr.1, hm.2⟩, hr.2⟩

/-! ### Consumers -/

section Consumers
variable {I α : Type} {w : Nat} [SIMDSized I] [SIMDIterator I α w] {c : Cfg} {P : I → Prop}

/-- A closure with an accumulator has no undefined behaviour of its own. -/
def SafeFn2 {σ A α : Type} (f : σ → A → α → Res (A × σ)) : Prop := ∀ st a v, (f st a v).isSafe

omit [SIMDSized I] [SIMDIterator I α w] in
theorem safeFn2_ensures {σ A α : Type} {f : σ → A → α → Res (A × σ)} (h : SafeFn2 f) (st : σ)
    (a : A) (v : α) : (f st a v).Ensures fun _ => True := by
  have := h st a v
  cases h2 : f st a v <;> simp_all [Res.isSafe, Res.Ensures]

theorem reduceLoop_ensures {A σ : Type} (h : SafeIter c P) {f : σ → A → Vector α w → Res (A × σ)}
    (hf : SafeFn2 f) : ∀ (fuel : Nat) (it : I) (acc : A) (st : σ), P it →
    (reduceLoop c f fuel it acc st).Ensures fun r => P r.1 := by
  intro fuel
  induction fuel with
  | zero => intros; trivial
  | succ fuel ih =>
    intro it acc st hp
    simp only [reduceLoop]
    refine ensures_bind (h.next it hp) fun r _ hr => ?_
    obtain ⟨r, it⟩ := r
    cases r with
    | none => exact hr.1
    | some v => exact ensures_bind (safeFn2_ensures hf _ _ _) fun r2 _ _ => ih it r2.1 r2.2 hr.1

/-- **C79**: `simd_reduce`. -/
theorem C79_reduce {A σ : Type} (h : SafeIter c P) {f : σ → A → Vector α w → Res (A × σ)}
    (hf : SafeFn2 f) (fuel : Nat) (it : I) (start : A) (st : σ) (hp : P it) :
    (simdReduce c fuel it start st f).Ensures fun r => P r.1 := by
  simp only [simdReduce]
  refine ensures_bind (reduceLoop_ensures h hf fuel it start st hp) fun r _ hr => ?_
  obtain ⟨it, acc, st⟩ := r
  refine ensures_bind (h.end_ it hr) fun r _ hr2 => ?_
  obtain ⟨r, it⟩ := r
  cases r with
  | none => exact hr2.1
  | some v => exact ensures_bind (safeFn2_ensures hf _ _ _) fun _ _ _ => hr2.1

theorem doEachLoop_ensures {σ : Type} (h : SafeIter c P) {f : FnMut σ (Vector α w) Unit}
    (hf : SafeFn f) : ∀ (fuel : Nat) (it : I) (st : σ), P it →
    (doEachLoop c f fuel it st).Ensures fun r => P r.1 := by
  intro fuel
  induction fuel with
  | zero => intros; trivial
  | succ fuel ih =>
    intro it st hp
    simp only [doEachLoop]
    refine ensures_bind (h.next it hp) fun r _ hr => ?_
    obtain ⟨r, it⟩ := r
    cases r with
    | none => exact hr.1
    | some v => exact ensures_bind (safeFn_ensures hf _ _) fun r2 _ _ => ih it r2.2 hr.1

/-- **C79**: `simd_do_each`. -/
theorem C79_do_each {σ : Type} (h : SafeIter c P) {f : FnMut σ (Vector α w) Unit}
    (hf : SafeFn f) (fuel : Nat) (it : I) (st : σ) (hp : P it) :
    (simdDoEach c fuel it st f).Ensures fun r => P r.1 := by
  simp only [simdDoEach]
  refine ensures_bind (doEachLoop_ensures h hf fuel it st hp) fun r _ hr => ?_
  obtain ⟨it, st⟩ := r
  refine ensures_bind (h.end_ it hr) fun r _ hr2 => ?_
  obtain ⟨r, it⟩ := r
  cases r with
  | none => exact hr2.1
  | some v => exact ensures_bind (safeFn_ensures hf _ _) fun _ _ _ => hr2.1

theorem fillLoop_ensures {κ : Type} (hd : c.debug = true) (h : SafeIter c P) (inj : α → κ) :
    ∀ (fuel : Nat) (it : I) (buf : List κ) (o : Nat) (lv : Vector α w), P it → o ≤ buf.length →
    (fillLoop c inj fuel it buf o lv).Ensures fun r =>
      P r.1 ∧ LenLe c it r.1 ∧ r.2.1.length = buf.length ∧ r.2.2.1 ≤ buf.length := by
  intro fuel
  induction fuel with
  | zero => intros; trivial
  | succ fuel ih =>
    intro it buf o lv hp ho
    simp only [fillLoop]
    refine ensures_bind (h.next it hp) fun r _ hr => ?_
    obtain ⟨r, it'⟩ := r
    cases r with
    | none => exact ⟨hr.1, hr.2, rfl, ho⟩
    | some v =>
      refine ensures_bind (storeUnchecked_ensures hd _ _ _) fun buf' _ hb => ?_
      refine ensures_bind (uadd_ensures hd _ _) fun o' _ ho' => ?_
      refine (ih it' buf' o' v hr.1 (by rw [hb.2]; omega)).mono fun r _ h2 => ?_
      exact ⟨h2.1, hr.2.trans h2.2.1, by omega, by omega⟩

theorem fillTailLoop_ensures {κ : Type} (hd : c.debug = true) (inj : α → κ) (p : Vector α w)
    (n o : Nat) : ∀ (k i : Nat) (buf : List κ), (k = 0 → o + i ≤ buf.length) →
    (fillTailLoop c inj p n o k i buf).Ensures fun r =>
      r.length = buf.length ∧ o + i + k ≤ buf.length := by
  intro k
  induction k with
  | zero => intro i buf h; exact ⟨rfl, h rfl⟩
  | succ k ih =>
    intro i buf _
    simp only [fillTailLoop]
    refine ensures_bind (uadd_ensures hd _ _) fun _ _ _ => ?_
    refine ensures_bind (extractUnchecked_ensures hd _ _) fun _ _ _ => ?_
    refine ensures_bind (uadd_ensures hd _ _) fun _ _ h1 => ?_
    refine ensures_bind (indexSet_ensures _ _ _) fun buf' _ hb => ?_
    refine (ih (i + 1) buf' (by omega)).mono fun r _ hr => ?_
    exact ⟨by omega, by omega⟩

theorem fillTail_ensures {κ : Type} (hd : c.debug = true) (inj : α → κ) (p : Vector α w)
    (n o : Nat) (lv : Vector α w) (buf : List κ) (ho : o ≤ buf.length) :
    (fillTail c inj p n o lv buf).Ensures fun r =>
      r.length = buf.length ∧ w + o - n ≤ buf.length := by
  simp only [fillTail]
  refine ensures_ite (fun _ => ?_) (fun h => ?_)
  · refine ensures_bind (usub_ensures hd _ _) fun _ _ h1 => ?_
    refine ensures_bind (storeUnchecked_ensures hd _ _ _) fun b1 _ hb1 => ?_
    refine ensures_bind (usub_ensures hd _ _) fun _ _ _ => ?_
    refine (storeUnchecked_ensures hd _ _ _).mono fun b2 _ hb2 => ?_
    exact ⟨by omega, by omega⟩
  · refine ensures_bind (usub_ensures hd _ _) fun k _ hk => ?_
    refine (fillTailLoop_ensures hd inj p n o k 0 buf (by omega)).mono fun b _ hb => ?_
    exact ⟨hb.1, by omega⟩

/-- **C79**: `scalar_fill`. -/
theorem C79_fill [Packable α] (hd : c.debug = true) (h : SafeIter c P) (fuel : Nat) (it : I)
    (buf : List α) (hp : P it) :
    (scalarFill c fuel it buf).Ensures fun r => P r.1 ∧ r.2.length = buf.length := by
  simp only [scalarFill]
  refine ensures_bind (fillLoop_ensures hd h id fuel it buf 0 _ hp (by omega)) fun r _ hr => ?_
  obtain ⟨it, buf', o, lv⟩ := r
  refine ensures_bind (h.end_ it hr.1) fun r _ hr2 => ?_
  obtain ⟨r, it⟩ := r
  have h1 : buf'.length = buf.length := hr.2.2.1
  have h2 : o ≤ buf.length := hr.2.2.2
  cases r with
  | none => exact ⟨hr2.1, h1⟩
  | some v =>
    refine ensures_bind (fillTail_ensures hd id _ _ o lv buf' (by omega)) fun b _ hb => ?_
    exact ⟨hr2.1, by rw [hb.1, h1]⟩

omit [SIMDSized I] [SIMDIterator I α w] in
theorem setLen_ensures (v : RVec α) (n : Nat) (h : n ≤ v.cells.length) :
    (v.setLen n).Ensures fun v' => v' = { v with len := n } := by
  simp only [RVec.setLen, if_pos h]
  rfl

/-- **C79**: `scalar_collect`. -/
theorem C79_collect [Packable α] (hd : c.debug = true) (h : SafeIter c P) (fuel : Nat) (it : I)
    (hp : P it) : (scalarCollect c fuel it).Ensures fun r => P r.1 := by
  simp only [scalarCollect]
  refine ensures_bind (h.len it hp) fun m hm _ => ?_
  refine ensures_bind (uadd_ensures hd _ _) fun m1 hm1 e1 => ?_
  refine ensures_bind (umul_ensures hd _ _) fun cap hcap e2 => ?_
  simp only [hm, ok_bind, hm1, hcap]
  refine ensures_bind (setLen_ensures _ _ (by simp [RVec.withCapacity])) fun v _ hv => ?_
  have hs : v.slice.length = cap := by simp [hv, RVec.slice, RVec.withCapacity]
  have hc : v.cells.length = cap := by simp [hv, RVec.withCapacity]
  have hl : v.len = cap := by simp [hv]
  have hput : ∀ b : List (Option α), b.length = cap → (v.putSlice b).cells.length = cap := by
    intro b hb
    simp [RVec.putSlice, hb, hc, hl]
  refine ensures_bind (fillLoop_ensures hd h some fuel it v.slice 0 _ hp (by omega)) fun r _ hr => ?_
  obtain ⟨it1, buf, o, lv⟩ := r
  refine ensures_bind (h.end_ it1 hr.1) fun r _ hr2 => ?_
  obtain ⟨r, it2⟩ := r
  have h1 : buf.length = cap := hr.2.2.1.trans hs
  have h2 : o ≤ cap := Nat.le_trans hr.2.2.2 (by omega)
  cases r with
  | none =>
    have hl2 : (SIMDIterable.len c it2).Ensures (· ≤ m) :=
      (hr.2.1.trans hr2.2) m (by rw [hm]; exact Nat.le_refl m)
    refine ensures_bind hl2 fun m2 _ hm2 => ?_
    refine ensures_bind (umul_ensures hd _ _) fun x _ hx => ?_
    refine ensures_bind (setLen_ensures _ _ ?_) fun _ _ _ => hr2.1
    rw [hput buf h1, hx, e2, e1]
    exact Nat.mul_le_mul_right w (Nat.le_succ_of_le hm2)
  | some vn =>
    obtain ⟨vec, n⟩ := vn
    refine ensures_bind (fillTail_ensures hd some _ _ o lv buf (by omega)) fun b _ hb => ?_
    refine ensures_bind (uadd_ensures hd _ _) fun x _ hx => ?_
    refine ensures_bind (usub_ensures hd _ _) fun y _ hy => ?_
    refine ensures_bind (setLen_ensures _ _ ?_) fun _ _ _ => hr2.1
    rw [hput b (by rw [hb.1, h1]), hy.2, hx, ← h1]
    exact hb.2

theorem fillAllLoop_ensures {κ : Type} (hd : c.debug = true) (h : SafeIter c P) (inj : α → κ) :
    ∀ (fuel : Nat) (it : I) (buf : List κ) (o : Nat), P it →
    (fillAllLoop c inj fuel it buf o).Ensures fun r => P r.1 ∧ r.2.1.length = buf.length := by
  intro fuel
  induction fuel with
  | zero => intros; trivial
  | succ fuel ih =>
    intro it buf o hp
    simp only [fillAllLoop]
    refine ensures_bind (h.next it hp) fun r _ hr => ?_
    obtain ⟨r, it'⟩ := r
    cases r with
    | none => exact ⟨hr.1, rfl⟩
    | some v =>
      refine ensures_bind (storeUnchecked_ensures hd _ _ _) fun buf' _ hb => ?_
      refine ensures_bind (uadd_ensures hd _ _) fun o' _ ho' => ?_
      exact (ih it' buf' o' hr.1).mono fun r _ h2 => ⟨h2.1, by omega⟩

theorem fillAllCells_ensures {κ : Type} (hd : c.debug = true) (h : SafeIter c P) (inj : α → κ)
    (fuel : Nat) (it : I) (buf : List κ) (hp : P it) :
    (scalarFillAllCells c inj fuel it buf).Ensures fun r => P r.1 ∧ r.2.length = buf.length := by
  simp only [scalarFillAllCells]
  refine ensures_bind (fillAllLoop_ensures hd h inj fuel it buf 0 hp) fun r _ hr => ?_
  obtain ⟨it, buf', o⟩ := r
  refine ensures_bind (h.end_ it hr.1) fun r _ hr2 => ?_
  obtain ⟨r, it⟩ := r
  cases r with
  | none => exact ⟨hr2.1, hr.2⟩
  | some v =>
    refine ensures_bind (storeUnchecked_ensures hd _ _ _) fun b _ hb => ?_
    exact ⟨hr2.1, hb.2.trans hr.2⟩

/-- **C79**: `scalar_fill_all`. -/
theorem C79_fill_all (hd : c.debug = true) (h : SafeIter c P) (fuel : Nat) (it : I)
    (buf : List α) (hp : P it) :
    (scalarFillAll c fuel it buf).Ensures fun r => P r.1 ∧ r.2.length = buf.length :=
  fillAllCells_ensures hd h id fuel it buf hp

/-- **C79**: `scalar_collect_all`. -/
theorem C79_collect_all (hd : c.debug = true) (hw : 0 < w) (h : SafeIter c P) (fuel : Nat) (it : I)
    (hp : P it) : (scalarCollectAll c fuel it).Ensures fun r => P r.1 := by
  simp only [scalarCollectAll]
  refine ensures_bind (h.len it hp) fun m hm _ => ?_
  refine ensures_bind (uadd_ensures hd _ _) fun m1 hm1 e1 => ?_
  refine ensures_bind (umul_ensures hd _ _) fun cap hcap e2 => ?_
  simp only [hm, ok_bind]
  refine ensures_bind (setLen_ensures _ _ ?_) fun v _ hv => ?_
  · simp only [RVec.withCapacity, List.length_replicate, e2, e1]
    exact Nat.le_trans (Nat.le_succ m) (Nat.le_mul_of_pos_right _ hw)
  refine ensures_bind (fillAllCells_ensures hd h some fuel it v.slice hp) fun r _ hr => ?_
  exact hr.1

theorem unrolledLoop_ensures (h : SafeIter c P) : ∀ (k i : Nat) (u : Unrolled I α w), P u.iter →
    (Unrolled.nextLoop c k i u).Ensures fun r => P r.2.iter ∧ r.2.amt = u.amt ∧ r.1 ≤ i + k := by
  intro k
  induction k with
  | zero => intro i u hu; exact ⟨hu, rfl, Nat.le_refl _⟩
  | succ k ih =>
    intro i u hu
    simp only [Unrolled.nextLoop]
    refine ensures_bind (h.next u.iter hu) fun r _ hr => ?_
    obtain ⟨r, it⟩ := r
    cases r with
    | none => exact ⟨hr.1, rfl, by simp⟩
    | some v =>
      by_cases hi : i < 8
      · simp only [dif_pos hi]
        refine (ih (i + 1) _ hr.1).mono fun r _ h2 => ⟨h2.1, h2.2.1, ?_⟩
        have := h2.2.2
        omega
      · simp only [dif_neg hi]; trivial

/-- **C79**: `unroll`: creating the view and every `next`; the slice returned
lies inside the buffer of 8 vectors. -/
theorem C79_unroll [Packable α] (h : SafeIter c P) (it : I) (amt : Nat) (hp : P it) :
    ((unroll it amt : Res (Unrolled I α w)).Ensures fun u => P u.iter ∧ u.amt ≤ 8) ∧
    ∀ u : Unrolled I α w, P u.iter → u.amt ≤ 8 →
      (Unrolled.next c u).Ensures fun r =>
        P r.2.iter ∧ r.2.amt ≤ 8 ∧ ∀ s, r.1 = some s → s.len ≤ 8 := by
  constructor
  · simp only [unroll]
    exact ensures_bind (assert_ensures _) fun _ _ h1 => ⟨hp, by simpa using h1⟩
  · intro u hu ha
    simp only [Unrolled.next]
    refine ensures_bind (unrolledLoop_ensures h u.amt 0 u hu) fun r _ hr => ?_
    obtain ⟨i, u'⟩ := r
    have h2 : u'.amt = u.amt := hr.2.1
    have h3 : i ≤ 0 + u.amt := hr.2.2
    have h4 : u'.amt ≤ 8 := by omega
    refine ensures_ite (fun _ => ⟨hr.1, h4, fun s hs => ?_⟩)
      (fun _ => ⟨hr.1, h4, fun s hs => by cases hs⟩)
    cases hs
    show i ≤ 8
    omega

/-- **C79**: any sequence of calls of safe methods. -/
theorem C79_calls [SIMDArray I α w] (hd : c.debug = true) (h : SafeIter c P) (ha : SafeArray c P) :
    ∀ (ops : List IterOp) (it : I), P it → (runOps c it ops).Ensures fun r => P r.2 := by
  have step : ∀ (op : IterOp) (it : I), P it → (op.step c it).Ensures fun r => P r.2 := by
    intro op it hp
    cases op with
    | next => exact ensures_bind (h.next it hp) fun _ _ h2 => h2.1
    | end_ => exact ensures_bind (h.end_ it hp) fun _ _ h2 => h2.1
    | scalar =>
      refine ensures_bind (Q := fun r : Option α × Unpacked I => P r.2.iter) ?_ fun ⟨_, _⟩ _ h2 => h2
      simp only [Unpacked.next, unpack]
      refine ensures_bind (h.scalarPos it hp) fun _ _ _ => ?_
      refine ensures_bind (h.scalarLen it hp) fun _ _ _ => ?_
      refine ensures_ite (fun _ => ?_) (fun _ => hp)
      refine ensures_bind (h.scalarPos it hp) fun _ _ _ => ?_
      refine ensures_bind (ha.loadScalarUnchecked it _ hp) fun _ _ _ => ?_
      exact ensures_bind (h.advance it 1 hp) fun _ _ h2 => h2.1
    | advance k => exact ensures_bind (h.advance it k hp) fun _ _ h2 => h2.1
    | finalize => exact ensures_bind (finalize_ensures hd h.toSafeIterable it hp) fun _ _ h2 => h2.1
    | len => exact ensures_bind (h.len it hp) fun _ _ _ => hp
    | scalarPos => exact ensures_bind (h.scalarPos it hp) fun _ _ _ => hp
    | scalarLen => exact ensures_bind (h.scalarLen it hp) fun _ _ _ => hp
    | vectorLen => exact ensures_bind (h.vecLen it hp) fun _ _ _ => hp
    | vectorPos => exact ensures_bind (h.vectorPos it hp) fun _ _ _ => hp
    | load o => exact ensures_bind (ha.load it o hp) fun _ _ _ => hp
    | loadScalar o => exact ensures_bind (ha.loadScalar it o hp) fun _ _ _ => hp
  intro ops
  induction ops with
  | nil => intro it hp; exact hp
  | cons op ops ih =>
    intro it hp
    simp only [runOps]
    refine ensures_bind (step op it hp) fun r _ hr => ?_
    exact ensures_bind (ih r.2 hr) fun r2 _ h2 => h2

end Consumers

/-! ### Consumers of zips -/

section ZConsumers
variable {Z γ : Type} [SIMDZippedIterator Z γ] {c : Cfg} {P : Z → Prop}

theorem zreduceLoop_ensures {A σ : Type} (h : SafeZip c P) {f : σ → A → γ → Res (A × σ)}
    (hf : SafeFn2 f) : ∀ (fuel : Nat) (z : Z) (acc : A) (st : σ), P z →
    (zreduceLoop c f fuel z acc st).Ensures fun r => P r.1 := by
  intro fuel
  induction fuel with
  | zero => intros; trivial
  | succ fuel ih =>
    intro z acc st hp
    simp only [zreduceLoop]
    refine ensures_bind (h.next z hp) fun r _ hr => ?_
    obtain ⟨r, z⟩ := r
    cases r with
    | none => exact hr.1
    | some v => exact ensures_bind (safeFn2_ensures hf _ _ _) fun r2 _ _ => ih z r2.1 r2.2 hr.1

/-- **C79**: `simd_reduce` of zips. -/
theorem C79_zip_reduce {A σ : Type} (h : SafeZip c P) {f : σ → A → γ → Res (A × σ)}
    (hf : SafeFn2 f) (fuel : Nat) (z : Z) (start : A) (st : σ) (hp : P z) :
    (zsimdReduce c fuel z start st f).Ensures fun r => P r.1 := by
  simp only [zsimdReduce]
  refine ensures_bind (zreduceLoop_ensures h hf fuel z start st hp) fun r _ hr => ?_
  obtain ⟨z, acc, st⟩ := r
  refine ensures_bind (h.end_ z hr) fun r _ hr2 => ?_
  obtain ⟨r, z⟩ := r
  cases r with
  | none => exact hr2.1
  | some v => exact ensures_bind (safeFn2_ensures hf _ _ _) fun _ _ _ => hr2.1

theorem zdoEachLoop_ensures {σ : Type} (h : SafeZip c P) {f : FnMut σ γ Unit}
    (hf : SafeFn f) : ∀ (fuel : Nat) (z : Z) (st : σ), P z →
    (zdoEachLoop c f fuel z st).Ensures fun r => P r.1 := by
  intro fuel
  induction fuel with
  | zero => intros; trivial
  | succ fuel ih =>
    intro z st hp
    simp only [zdoEachLoop]
    refine ensures_bind (h.next z hp) fun r _ hr => ?_
    obtain ⟨r, z⟩ := r
    cases r with
    | none => exact hr.1
    | some v => exact ensures_bind (safeFn_ensures hf _ _) fun r2 _ _ => ih z r2.2 hr.1

/-- **C79**: `simd_do_each` of zips. -/
theorem C79_zip_do_each {σ : Type} (h : SafeZip c P) {f : FnMut σ γ Unit}
    (hf : SafeFn f) (fuel : Nat) (z : Z) (st : σ) (hp : P z) :
    (zsimdDoEach c fuel z st f).Ensures fun r => P r.1 := by
  simp only [zsimdDoEach]
  refine ensures_bind (zdoEachLoop_ensures h hf fuel z st hp) fun r _ hr => ?_
  obtain ⟨z, st⟩ := r
  refine ensures_bind (h.end_ z hr) fun r _ hr2 => ?_
  obtain ⟨r, z⟩ := r
  cases r with
  | none => exact hr2.1
  | some v => exact ensures_bind (safeFn_ensures hf _ _) fun _ _ _ => hr2.1

theorem zfinalize_ensures (hd : c.debug = true) (h : SafeZip c P) (z : Z) (hp : P z) :
    (zfinalize c z).Ensures fun z' => P z' ∧ ZLenLe c z z' := by
  simp only [zfinalize]
  refine ensures_bind (h.scalarLen z hp) fun _ _ _ => ?_
  refine ensures_bind (h.scalarPos z hp) fun _ _ _ => ?_
  exact ensures_bind (usub_ensures hd _ _) fun _ _ _ => h.advance z _ hp

end ZConsumers

/-! ### `simd_for_each` -/

section ForEach

/-- Started with `P`, `m` has no undefined behaviour, and if it returns, `P`
holds again and `Q` for its result. -/
def MutM.Ensures {S α : Type} (P : S → Prop) (m : MutM S α) (Q : α → Prop) : Prop :=
  ∀ s, P s → (m s).1.Ensures Q ∧ ((∃ a, (m s).1 = ok a) → P (m s).2)

theorem mut_bind {S α β : Type} {P : S → Prop} {m : MutM S α} {f : α → MutM S β} {Q : α → Prop}
    {R : β → Prop} (h : m.Ensures P Q) (hf : ∀ a, Q a → (f a).Ensures P R) :
    (m >>= f).Ensures P R := by
  intro s hs
  have e : (m >>= f) s = MutM.bind m f s := rfl
  rw [e]
  unfold MutM.bind
  have h1 := h s hs
  cases h2 : m s with
  | mk r s' =>
    rw [h2] at h1
    cases r with
    | ok a => exact hf a h1.1 s' (h1.2 ⟨a, rfl⟩)
    | panic => exact ⟨trivial, fun ⟨_, h⟩ => by cases h⟩
    | ub => exact h1.1.elim
    | hang => exact ⟨trivial, fun ⟨_, h⟩ => by cases h⟩

theorem mut_pure {S α : Type} {P : S → Prop} {a : α} {Q : α → Prop} (h : Q a) :
    (pure a : MutM S α).Ensures P Q := fun _ hs => ⟨h, fun _ => hs⟩

theorem mut_lift {S α : Type} {P : S → Prop} {x : Res α} {Q : α → Prop} (h : x.Ensures Q) :
    (MutM.lift x : MutM S α).Ensures P Q := fun _ hs => ⟨h, fun _ => hs⟩

theorem mut_get {S : Type} {P : S → Prop} : (MutM.get : MutM S S).Ensures P P :=
  fun _ hs => ⟨hs, fun _ => hs⟩

theorem mut_call {S α : Type} {P : S → Prop} {f : S → Res (α × S)} {Q : α → Prop}
    (h : ∀ s, P s → (f s).Ensures fun r => Q r.1 ∧ P r.2) : (MutM.call f).Ensures P Q := by
  intro s hs
  have h1 := h s hs
  unfold MutM.call
  cases h2 : f s with
  | ok r => rw [h2] at h1; exact ⟨h1.1, fun _ => h1.2⟩
  | ub => rw [h2] at h1; exact h1.elim
  | panic => exact ⟨trivial, fun ⟨_, h⟩ => by cases h⟩
  | hang => exact ⟨trivial, fun ⟨_, h⟩ => by cases h⟩

theorem mut_modify {S : Type} {P : S → Prop} {f : S → Res S}
    (h : ∀ s, P s → (f s).Ensures P) : (MutM.modify f).Ensures P fun _ => True :=
  mut_call fun s hs => ensures_bind (h s hs) fun _ _ h2 => ⟨trivial, h2⟩

/-- Every unchecked store into an array is safe in the build `c`. -/
structure SafeArrayMut {A α : Type} {w : Nat} [SIMDArrayMut A α w] (c : Cfg) (Q : A → Prop) :
    Prop where
  storeUnchecked : ∀ a v o, Q a → (SIMDArrayMut.storeUnchecked c a v o).Ensures Q
  storeScalarUnchecked : ∀ a x o, Q a → (SIMDArrayMut.storeScalarUnchecked c a x o).Ensures Q

/-- **C79**: mutable slices; nothing can make them shorter or longer. -/
theorem C79_slice_mut {α : Type} {w : Nat} {c : Cfg} (hd : c.debug = true) (n : Nat) :
    SafeArrayMut c (fun s : Slice α w => s.elems.length = n) where
  storeUnchecked a v o h := by
    simp only [SIMDArrayMut.storeUnchecked]
    exact ensures_bind (storeUnchecked_ensures hd _ _ _) fun _ _ h2 => ensures_ok (h2.2.trans h)
  storeScalarUnchecked a x o h := by
    simp only [SIMDArrayMut.storeScalarUnchecked]
    refine ensures_bind (debugAssert_ensures hd _) fun _ _ h2 => ?_
    have h3 : o < a.elems.length := by simpa using h2
    simp only [setUnchecked, if_pos h3, ok_bind]
    exact ensures_ok (by simpa using h)

variable {A α σ : Type} {w : Nat} [SIMDSized A] [SIMDArray A α w] [SIMDArrayMut A α w] {c : Cfg}
  {Q : A → Prop}

theorem forEachLoop_ensures (hd : c.debug = true) (ha : SafeArray c Q) (hm : SafeArrayMut c Q)
    {f : FnMut σ (Vector α w) (Vector α w)} (hf : SafeFn f) :
    ∀ (fuel : Nat) (lv : Vector α w) (st : σ),
    (forEachLoop c f fuel lv st : MutM (SIMDIter A α w) _).Ensures (fun it => Q it.data)
      fun _ => True := by
  intro fuel
  induction fuel with
  | zero => intro lv st; exact mut_lift trivial
  | succ fuel ih =>
    intro lv st
    simp only [forEachLoop]
    refine mut_bind (Q := fun _ => True) (mut_call fun it h => ?_) fun r _ => ?_
    · exact ((C79_iter hd ha).next it h).mono fun _ _ h2 => ⟨trivial, h2.1⟩
    cases r with
    | none => exact mut_pure trivial
    | some v =>
      refine mut_bind (mut_lift (safeFn_ensures hf _ _)) fun r _ => ?_
      refine mut_bind mut_get fun it hit => ?_
      refine mut_bind (Q := fun _ => True) (mut_lift ?_) fun o _ => ?_
      · exact ensures_bind ((C79_iter hd ha).scalarPos it hit) fun _ _ _ =>
          (usub_ensures hd _ _).mono fun _ _ _ => trivial
      refine mut_bind (mut_modify fun it h => ?_) fun _ _ => ih _ _
      exact ensures_bind (hm.storeUnchecked it.data _ _ h) fun _ _ h2 => h2

omit [SIMDSized A] [SIMDArray A α w] in
theorem forEachTailLoop_ensures (hd : c.debug = true) (hm : SafeArrayMut c Q) (p : Vector α w)
    (n o : Nat) : ∀ (k i : Nat),
    (forEachTailLoop c p n o k i : MutM (SIMDIter A α w) _).Ensures (fun it => Q it.data)
      fun _ => True := by
  intro k
  induction k with
  | zero => intro i; exact mut_pure trivial
  | succ k ih =>
    intro i
    simp only [forEachTailLoop]
    refine mut_bind (Q := fun _ => True) (mut_lift ?_) fun x _ => ?_
    · exact ensures_bind (uadd_ensures hd _ _) fun _ _ _ =>
        (extractUnchecked_ensures hd _ _).mono fun _ _ _ => trivial
    refine mut_bind (mut_lift (uadd_ensures hd _ _)) fun _ _ => ?_
    refine mut_bind (mut_modify fun it h => ?_) fun _ _ => ih _
    exact ensures_bind (hm.storeScalarUnchecked it.data _ _ h) fun _ _ h2 => h2

/-- **C79**: `simd_for_each`. -/
theorem C79_for_each [Packable α] (hd : c.debug = true) (ha : SafeArray c Q)
    (hm : SafeArrayMut c Q) {f : FnMut σ (Vector α w) (Vector α w)} (hf : SafeFn f) (fuel : Nat)
    (st : σ) (it : SIMDIter A α w) (hq : Q it.data) : (simdForEach c fuel st f it).1.isSafe := by
  have : (simdForEach c fuel st f : MutM (SIMDIter A α w) σ).Ensures (fun it => Q it.data)
      fun _ => True := by
    simp only [simdForEach]
    refine mut_bind (forEachLoop_ensures hd ha hm hf fuel _ st) fun r _ => ?_
    refine mut_bind mut_get fun it hit => ?_
    refine mut_bind (mut_lift ((C79_iter hd ha).scalarPos it hit)) fun o _ => ?_
    refine mut_bind (Q := fun _ => True) (mut_call fun it h => ?_) fun r _ => ?_
    · exact ((C79_iter hd ha).end_ it h).mono fun _ _ h2 => ⟨trivial, h2.1⟩
    cases r with
    | none => exact mut_pure trivial
    | some v =>
      refine mut_bind (mut_lift (safeFn_ensures hf _ _)) fun r _ => ?_
      refine mut_bind mut_get fun it hit => ?_
      refine mut_bind (mut_lift ((C79_iter hd ha).scalarLen it hit)) fun len _ => ?_
      by_cases hw : w < len
      · rw [if_pos hw]
        refine mut_bind (mut_modify fun it h => ?_) fun _ _ => ?_
        · refine ensures_bind (usub_ensures hd _ _) fun _ _ _ => ?_
          exact ensures_bind (hm.storeUnchecked it.data _ _ h) fun _ _ h2 => h2
        refine mut_bind (mut_modify fun it h => ?_) fun _ _ => mut_pure trivial
        refine ensures_bind (usub_ensures hd _ _) fun _ _ _ => ?_
        exact ensures_bind (hm.storeUnchecked it.data _ _ h) fun _ _ h2 => h2
      · rw [if_neg hw]
        refine mut_bind (mut_lift (usub_ensures hd _ _)) fun _ _ => ?_
        exact mut_bind (forEachTailLoop_ensures hd hm _ _ _ _ _) fun _ _ => mut_pure trivial
  exact (this it hq).1.isSafe

end ForEach

end Faster
