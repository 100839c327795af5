import Verif.StrideZip
import Verif.Stride
import Verif.AnyAdapter
import Verif.EndBlend
import Verif.Intrin.Arith
import Verif.Props.Unwind
/-
C146: release builds compute what debug builds compute, unless the debug build panics.

Debug builds check `debug_assert!` and overflow. The theorems compare every function of the
iterators in both builds, for every state of the iterator and all arguments. The closures may differ
between the builds as well (their arithmetic is checked too), as long as they have the same relation
to each other.
-/
namespace Faster
open Res SIMDSized SIMDIterable SIMDIterator MutM

/-- A debug build for a target. -/
abbrev debugOf (u : Nat) : Cfg := ⟨true, u⟩
/-- The release build for the same target. -/
abbrev releaseOf (u : Nat) : Cfg := ⟨false, u⟩

/-- The outcome of a release build, given that of the debug build: anything if the debug build
panics; otherwise the outcome is of the same kind, and the results are related by `R`. -/
def Agree {α β : Type} (R : α → β → Prop) : Res α → Res β → Prop
  | Res.panic, _ => True
  | ok a, ok b => R a b
  | ub, ub => True
  | hang, hang => True
  | _, _ => False

/-- Both builds have the same result, unless the debug build panics. -/
abbrev Same {α : Type} (x y : Res α) : Prop := Agree Eq x y

section Rules
variable {α β γ δ : Type} {R : α → β → Prop} {S : γ → δ → Prop}

theorem agree_bind {x : Res α} {y : Res β} {f : α → Res γ} {g : β → Res δ} (h : Agree R x y)
    (hf : ∀ a b, R a b → Agree S (f a) (g b)) : Agree S (x >>= f) (y >>= g) := by
  cases x <;> cases y <;> first | exact hf _ _ h | trivial | exact h.elim

theorem same_bind {x y : Res α} {f : α → Res γ} {g : α → Res δ} (h : Same x y)
    (hf : ∀ a, Agree S (f a) (g a)) : Agree S (x >>= f) (y >>= g) :=
  agree_bind h fun a b e => by rw [← e]; exact hf a

theorem agree_ok {a : α} {b : β} (h : R a b) : Agree R (ok a) (ok b) := h

theorem same_refl (x : Res α) : Same x x := by
  cases x <;> first | rfl | trivial

/-- Code which only the debug build runs. -/
theorem agree_extra {x : Res α} {f : α → Res γ} {y : Res δ} (hx : x ≠ ub) (hx' : x ≠ hang)
    (hf : ∀ a, Agree S (f a) y) : Agree S (x >>= f) y := by
  cases x with
  | ok a => exact hf a
  | panic => trivial
  | ub => exact absurd rfl hx
  | hang => exact absurd rfl hx'

theorem agree_ite {p : Prop} [Decidable p] {x x' : Res α} {y y' : Res β} (h : Agree R x y)
    (h' : Agree R x' y') : Agree R (if p then x else x') (if p then y else y') := by
  by_cases hp : p
  · rw [if_pos hp, if_pos hp]; exact h
  · rw [if_neg hp, if_neg hp]; exact h'

theorem same_ok {x y : Res α} (h : Same x y) {a : α} (e : x = ok a) : y = ok a := by
  subst e
  cases y with
  | ok b => exact congrArg ok h.symm
  | _ => exact h.elim

theorem assert_ne_ub (b : Bool) : assert b ≠ ub := by cases b <;> simp [assert]
theorem assert_ne_hang (b : Bool) : assert b ≠ hang := by cases b <;> simp [assert]
theorem sliceFrom_ne_ub {data : List α} {o : Nat} : sliceFrom data o ≠ ub := by
  unfold sliceFrom; split <;> simp
theorem sliceFrom_ne_hang {data : List α} {o : Nat} : sliceFrom data o ≠ hang := by
  unfold sliceFrom; split <;> simp
theorem extract_ne_ub {w : Nat} {v : Vector α w} {o : Nat} : Packed.extract v o ≠ ub := by
  unfold Packed.extract; split <;> simp
theorem extract_ne_hang {w : Nat} {v : Vector α w} {o : Nat} : Packed.extract v o ≠ hang := by
  unfold Packed.extract; split <;> simp

end Rules

section Primitives
variable {u : Nat}

theorem uadd_ne_ub (c : Cfg) (a b : Nat) : uadd c a b ≠ ub := by
  unfold uadd; repeat' split
  all_goals simp
theorem uadd_ne_hang (c : Cfg) (a b : Nat) : uadd c a b ≠ hang := by
  unfold uadd; repeat' split
  all_goals simp
theorem usub_ne_ub (c : Cfg) (a b : Nat) : usub c a b ≠ ub := by
  unfold usub; repeat' split
  all_goals simp
theorem usub_ne_hang (c : Cfg) (a b : Nat) : usub c a b ≠ hang := by
  unfold usub; repeat' split
  all_goals simp
theorem umul_ne_ub (c : Cfg) (a b : Nat) : umul c a b ≠ ub := by
  unfold umul; repeat' split
  all_goals simp
theorem umul_ne_hang (c : Cfg) (a b : Nat) : umul c a b ≠ hang := by
  unfold umul; repeat' split
  all_goals simp

theorem same_uadd (a b : Nat) : Same (uadd (debugOf u) a b) (uadd (releaseOf u) a b) := by
  unfold uadd
  exact agree_ite rfl trivial

theorem same_usub (a b : Nat) : Same (usub (debugOf u) a b) (usub (releaseOf u) a b) := by
  unfold usub
  exact agree_ite rfl trivial

theorem same_umul (a b : Nat) : Same (umul (debugOf u) a b) (umul (releaseOf u) a b) := by
  unfold umul
  exact agree_ite rfl trivial

variable {α : Type} {w : Nat}

theorem same_loadUnchecked (data : List α) (o : Nat) :
    Same (Packed.loadUnchecked (w := w) (debugOf u) data o) (Packed.loadUnchecked (releaseOf u) data o) := by
  unfold Packed.loadUnchecked
  refine agree_extra sliceFrom_ne_ub sliceFrom_ne_hang fun s => ?_
  refine agree_extra (assert_ne_ub _) (assert_ne_hang _) fun _ => ?_
  exact same_refl _

theorem same_debugAssert (b : Bool) : Same (debugAssert (debugOf u) b) (debugAssert (releaseOf u) b) := by
  cases b
  · trivial
  · rfl

theorem same_storeUnchecked (v : Vector α w) (data : List α) (o : Nat) :
    Same (Packed.storeUnchecked (debugOf u) v data o) (Packed.storeUnchecked (releaseOf u) v data o) := by
  unfold Packed.storeUnchecked
  refine agree_extra sliceFrom_ne_ub sliceFrom_ne_hang fun s => ?_
  refine agree_extra (assert_ne_ub _) (assert_ne_hang _) fun _ => ?_
  exact same_refl _

theorem same_extractUnchecked (v : Vector α w) (i : Nat) :
    Same (Packed.extractUnchecked (debugOf u) v i) (Packed.extractUnchecked (releaseOf u) v i) :=
  same_bind (same_debugAssert _) fun _ => same_refl _

theorem same_replaceUnchecked (v : Vector α w) (i : Nat) (x : α) :
    Same (Packed.replaceUnchecked (debugOf u) v i x) (Packed.replaceUnchecked (releaseOf u) v i x) :=
  same_bind (same_debugAssert _) fun _ => same_refl _

theorem same_mergeLoop (other : Vector α w) : ∀ (n i : Nat) (ret : Vector α w),
    Same (Packed.mergeLoop (debugOf u) other n i ret) (Packed.mergeLoop (releaseOf u) other n i ret)
  | 0, _, _ => rfl
  | n + 1, i, _ => same_bind (same_extractUnchecked _ _) fun _ =>
      same_bind (same_replaceUnchecked _ _ _) fun _ => same_mergeLoop other n (i + 1) _

theorem same_mergePartitioned (v other : Vector α w) (o : Nat) :
    Same (Packed.mergePartitioned (debugOf u) v other o) (Packed.mergePartitioned (releaseOf u) v other o) :=
  same_bind (same_refl _) fun _ => same_mergeLoop _ _ _ _

end Primitives

/-! ### The traits -/

/-- The two forms of one value in the two builds: they have the same state, but their closures may be
compiled differently. -/
class Twin (I : Type) where
  twin : I → I → Prop
  refl : ∀ x, twin x x
export Twin (twin)

/-- The relation between the results of a method: equal values, twin iterators. -/
abbrev Both {X I : Type} [Twin I] (p q : X × I) : Prop := p.1 = q.1 ∧ twin p.2 q.2

/-- Arrays whose lengths agree; the length is defined. -/
class SameLen (A : Type) [SIMDSized A] : Prop where
  len (u : Nat) (a : A) : Same (scalarLen (debugOf u) a) (scalarLen (releaseOf u) a)
  len_ub (u : Nat) (a : A) : scalarLen (debugOf u) a ≠ ub
  len_hang (u : Nat) (a : A) : scalarLen (debugOf u) a ≠ hang

/-- Arrays whose methods agree. (They contain no closures.) -/
class SameArray (A : Type) {α : Type} {w : Nat} [SIMDSized A] [SIMDArray A α w] : Prop extends SameLen A where
  load (u : Nat) (a : A) (o : Nat) : Same (SIMDArray.load (debugOf u) a o) (SIMDArray.load (releaseOf u) a o)
  loadUnchecked (u : Nat) (a : A) (o : Nat) :
    Same (SIMDArray.loadUnchecked (debugOf u) a o) (SIMDArray.loadUnchecked (releaseOf u) a o)
  loadScalar (u : Nat) (a : A) (o : Nat) :
    Same (SIMDArray.loadScalar (debugOf u) a o) (SIMDArray.loadScalar (releaseOf u) a o)
  loadScalarUnchecked (u : Nat) (a : A) (o : Nat) :
    Same (SIMDArray.loadScalarUnchecked (debugOf u) a o) (SIMDArray.loadScalarUnchecked (releaseOf u) a o)

/-- Mutable arrays whose methods agree. -/
class SameArrayMut (A : Type) {α : Type} {w : Nat} [SIMDArrayMut A α w] : Prop where
  store (u : Nat) (a : A) (v : Vector α w) (o : Nat) :
    Same (SIMDArrayMut.store (debugOf u) a v o) (SIMDArrayMut.store (releaseOf u) a v o)
  storeUnchecked (u : Nat) (a : A) (v : Vector α w) (o : Nat) :
    Same (SIMDArrayMut.storeUnchecked (debugOf u) a v o) (SIMDArrayMut.storeUnchecked (releaseOf u) a v o)
  storeScalar (u : Nat) (a : A) (x : α) (o : Nat) :
    Same (SIMDArrayMut.storeScalar (debugOf u) a x o) (SIMDArrayMut.storeScalar (releaseOf u) a x o)
  storeScalarUnchecked (u : Nat) (a : A) (x : α) (o : Nat) :
    Same (SIMDArrayMut.storeScalarUnchecked (debugOf u) a x o)
      (SIMDArrayMut.storeScalarUnchecked (releaseOf u) a x o)

/-- Values whose lengths agree. -/
class SameSized (I : Type) [SIMDSized I] [Twin I] : Prop where
  scalarLen (u : Nat) {x y : I} (h : twin x y) :
    Same (scalarLen (debugOf u) x) (scalarLen (releaseOf u) y)

/-- Iterators whose methods agree, except `end`. -/
class SameIterable (I : Type) {α : Type} {w : Nat} [SIMDSized I] [SIMDIterable I α w] [Twin I] : Prop
    extends SameSized I where
  next (u : Nat) {x y : I} (h : twin x y) :
    Agree Both (SIMDIterable.next (debugOf u) x) (SIMDIterable.next (releaseOf u) y)
  len (u : Nat) {x y : I} (h : twin x y) :
    Same (SIMDIterable.len (debugOf u) x) (SIMDIterable.len (releaseOf u) y)
  scalarPos (u : Nat) {x y : I} (h : twin x y) :
    Same (scalarPos (debugOf u) x) (scalarPos (releaseOf u) y)
  advance (u : Nat) {x y : I} (h : twin x y) (k : Nat) :
    Agree twin (advance (debugOf u) x k) (advance (releaseOf u) y k)
  dflt {x y : I} (h : twin x y) : dflt x = dflt y
  vectorPos (u : Nat) {x y : I} (h : twin x y) :
    Same (vectorPos (debugOf u) x) (vectorPos (releaseOf u) y)
  vecLen (u : Nat) {x y : I} (h : twin x y) :
    Same (vecLen (debugOf u) x) (vecLen (releaseOf u) y)

/-- Iterators whose methods agree. -/
class SameIterator (I : Type) {α : Type} {w : Nat} [SIMDSized I] [SIMDIterator I α w] [Twin I] : Prop
    extends SameIterable I where
  end_ (u : Nat) {x y : I} (h : twin x y) :
    Agree Both (SIMDIterator.end_ (debugOf u) x) (SIMDIterator.end_ (releaseOf u) y)

/-- The further iterators of a zip, when their methods agree. -/
class SameRest (R : Type) {γ : Type} [ZipRest R γ] : Prop where
  lenDiffers (u : Nat) (r : R) (n : Nat) :
    Same (ZipRest.lenDiffers (debugOf u) r n) (ZipRest.lenDiffers (releaseOf u) r n)
  nextAll (u : Nat) (r : R) (pos : Nat) :
    Same (ZipRest.nextAll (debugOf u) r pos) (ZipRest.nextAll (releaseOf u) r pos)
  endAll (u : Nat) (r : R) (pos n : Nat) :
    Same (ZipRest.endAll (debugOf u) r pos n) (ZipRest.endAll (releaseOf u) r pos n)

/-- Zipped iterators whose methods agree. -/
class SameZipped (Z : Type) {γ : Type} [SIMDZippedIterator Z γ] [Twin Z] : Prop where
  width {x y : Z} (h : twin x y) : SIMDZippedIterator.width x = SIMDZippedIterator.width y
  size {x y : Z} (h : twin x y) : SIMDZippedIterator.size x = SIMDZippedIterator.size y
  next (u : Nat) {x y : Z} (h : twin x y) :
    Agree Both (SIMDZippedIterator.next (debugOf u) x) (SIMDZippedIterator.next (releaseOf u) y)
  end_ (u : Nat) {x y : Z} (h : twin x y) :
    Agree Both (SIMDZippedIterator.end_ (debugOf u) x) (SIMDZippedIterator.end_ (releaseOf u) y)
  len (u : Nat) {x y : Z} (h : twin x y) :
    Same (SIMDZippedIterator.len (debugOf u) x) (SIMDZippedIterator.len (releaseOf u) y)
  scalarPos (u : Nat) {x y : Z} (h : twin x y) :
    Same (SIMDZippedIterator.scalarPos (debugOf u) x) (SIMDZippedIterator.scalarPos (releaseOf u) y)
  advance (u : Nat) {x y : Z} (h : twin x y) (k : Nat) :
    Agree twin (SIMDZippedIterator.advance (debugOf u) x k) (SIMDZippedIterator.advance (releaseOf u) y k)
  dflt {x y : Z} (h : twin x y) : SIMDZippedIterator.dflt x = SIMDZippedIterator.dflt y
  scalarLen (u : Nat) {x y : Z} (h : twin x y) :
    Same (SIMDZippedIterator.scalarLen (debugOf u) x) (SIMDZippedIterator.scalarLen (releaseOf u) y)
  vectorPos (u : Nat) {x y : Z} (h : twin x y) :
    Same (SIMDZippedIterator.vectorPos (debugOf u) x) (SIMDZippedIterator.vectorPos (releaseOf u) y)
  vectorLen (u : Nat) {x y : Z} (h : twin x y) :
    Same (SIMDZippedIterator.vectorLen (debugOf u) x) (SIMDZippedIterator.vectorLen (releaseOf u) y)

/-! ### The types -/

instance sameSlice {α : Type} {w : Nat} : SameArray (Slice α w) where
  len _ _ := rfl
  len_ub _ _ := by simp [scalarLen]
  len_hang _ _ := by simp [scalarLen]
  load _ _ _ := same_refl _
  loadUnchecked u s o := by
    show Same (do
      let t ← sliceFrom s.elems o
      assert (t.length ≥ w)
      Packed.loadUnchecked (debugOf u) s.elems o) (Packed.loadUnchecked (releaseOf u) s.elems o)
    refine agree_extra sliceFrom_ne_ub sliceFrom_ne_hang fun _ => ?_
    refine agree_extra (assert_ne_ub _) (assert_ne_hang _) fun _ => ?_
    exact same_loadUnchecked _ _
  loadScalar _ _ _ := same_refl _
  loadScalarUnchecked _ _ _ := same_bind (same_debugAssert _) fun _ => same_refl _

instance sameSliceMut {α : Type} {w : Nat} : SameArrayMut (Slice α w) where
  store _ _ _ _ := same_refl _
  storeUnchecked _ _ _ _ := same_bind (same_storeUnchecked _ _ _) fun _ => rfl
  storeScalar _ _ _ _ := same_refl _
  storeScalarUnchecked _ _ _ _ := same_bind (same_debugAssert _) fun _ => same_refl _

section Blanket
theorem agree_finalize {I α : Type} {w : Nat} [SIMDSized I] [SIMDIterable I α w] [Twin I] [SameIterable I]
    (u : Nat) {x y : I} (h : twin x y) : Agree twin (finalize (debugOf u) x) (finalize (releaseOf u) y) :=
  same_bind (SameSized.scalarLen u h) fun _ => same_bind (SameIterable.scalarPos u h) fun _ =>
    same_bind (same_usub _ _) fun _ => SameIterable.advance u h _

variable {T α : Type} {w : Nat} [SIMDSized T] [SIMDArray T α w]

theorem same_elementLoop [SameArray T] (u : Nat) (t : T) (e : Nat) : ∀ (n i : Nat) (ret : Vector α w),
    Same (elementLoop (debugOf u) t e n i ret) (elementLoop (releaseOf u) t e n i ret)
  | 0, _, _ => rfl
  | n + 1, i, _ => same_bind (same_uadd _ _) fun _ =>
      same_bind (SameArray.loadScalarUnchecked u t i) fun _ =>
        same_bind (same_replaceUnchecked _ _ _) fun _ => same_elementLoop u t e n (i + 1) _

theorem same_endVec [SIMDIterable T α w] [SameArray T] (u : Nat) (t : T) (len pos e : Nat) :
    Same (endVec (debugOf u) t len pos e) (endVec (releaseOf u) t len pos e) :=
  agree_ite (same_bind (same_usub _ _) fun _ => same_bind (SameArray.loadUnchecked u t _) fun _ =>
    same_mergePartitioned _ _ _) (same_elementLoop u t e _ _ _)

/-- For iterators without closures, the blanket `end` agrees. -/
theorem agree_blanketEnd [SIMDIterable T α w] [Twin T] [SameIterable T] [SameArray T] (u : Nat) (t : T) :
    Agree Both (blanketEnd (debugOf u) t) (blanketEnd (releaseOf u) t) :=
  same_bind (SameIterable.scalarPos u (Twin.refl t)) fun _ => same_bind (SameLen.len u t) fun _ =>
    agree_ite (same_bind (same_usub _ _) fun _ => same_bind (same_usub _ _) fun _ =>
      same_bind (same_endVec u t _ _ _) fun _ => agree_bind (agree_finalize u (Twin.refl t)) fun _ _ h =>
        ⟨rfl, h⟩) ⟨rfl, Twin.refl t⟩

theorem same_nextUnchecked [SameArray T] (u : Nat) (t : T) (o : Nat) :
    Same (nextUnchecked (debugOf u) t o) (nextUnchecked (releaseOf u) t o) := by
  unfold nextUnchecked
  refine agree_extra (uadd_ne_ub _ _ _) (uadd_ne_hang _ _ _) fun _ => ?_
  refine agree_extra (SameLen.len_ub u t) (SameLen.len_hang u t) fun _ => ?_
  refine agree_extra (assert_ne_ub _) (assert_ne_hang _) fun _ => ?_
  exact SameArray.loadUnchecked u t o

theorem same_endUnchecked [SIMDIterable T α w] [SameArray T] (u : Nat) (t : T) (o e : Nat) :
    Same (endUnchecked (debugOf u) t o e) (endUnchecked (releaseOf u) t o e) := by
  unfold endUnchecked
  refine same_bind (SameLen.len u t) fun _ => same_bind (same_debugAssert _) fun _ => ?_
  refine agree_extra (usub_ne_ub _ _ _) (usub_ne_hang _ _ _) fun _ => ?_
  refine agree_extra (usub_ne_ub _ _ _) (usub_ne_hang _ _ _) fun _ => ?_
  refine agree_extra (assert_ne_ub _) (assert_ne_hang _) fun _ => ?_
  exact same_endVec u t _ _ _

end Blanket

section Iter
variable {A α : Type} {w : Nat} [SIMDSized A] [SIMDArray A α w]

instance twinIter : Twin (SIMDIter A α w) := ⟨Eq, fun _ => rfl⟩

instance sameArrayIter [SameArray A] : SameArray (SIMDIter A α w) where
  len u it := SameLen.len u it.data
  len_ub u it := SameLen.len_ub u it.data
  len_hang u it := SameLen.len_hang u it.data
  load u it := SameArray.load u it.data
  loadUnchecked u it := SameArray.loadUnchecked u it.data
  loadScalar u it := SameArray.loadScalar u it.data
  loadScalarUnchecked u it := SameArray.loadScalarUnchecked u it.data

instance sameIterableIter [SameArray A] : SameIterable (SIMDIter A α w) where
  next u x _ h := by
    cases h
    exact same_bind (same_uadd _ _) fun _ => same_bind (SameLen.len u x) fun _ =>
      agree_ite (same_bind (SameArray.loadUnchecked u x.data _) fun _ =>
        same_bind (same_bind (same_uadd _ _) fun _ => rfl) fun _ => ⟨rfl, rfl⟩) ⟨rfl, rfl⟩
  len u x _ h := by cases h; exact same_bind (SameLen.len u x.data) fun _ => same_refl _
  scalarPos u _ _ h := by cases h; rfl
  advance u _ _ h k := by cases h; exact same_bind (same_uadd _ _) fun _ => rfl
  dflt h := by cases h; rfl
  vectorPos u _ _ h := by cases h; exact same_refl _
  vecLen u x _ h := by cases h; exact same_bind (SameLen.len u x.data) fun _ => same_refl _
  scalarLen u x _ h := by cases h; exact SameLen.len u x.data

instance sameIter [SameArray A] : SameIterator (SIMDIter A α w) where
  end_ u x _ h := by
    cases h
    exact agree_blanketEnd u x

end Iter

section Stride
variable {A α : Type} {w : Nat} [SIMDSized A] [SIMDArray A α w] [Packable α]

instance twinStride : Twin (PackedStride A α w) := ⟨Eq, fun _ => rfl⟩

omit [Packable α] in
theorem same_strideLoop [SameArray A] (u : Nat) (a : A) {f g : Nat → Res Nat} (h : ∀ i, Same (f i) (g i)) :
    ∀ (n i : Nat) (ret : Vector α w),
      Same (strideLoop (debugOf u) a f n i ret) (strideLoop (releaseOf u) a g n i ret)
  | 0, _, _ => rfl
  | n + 1, i, _ => same_bind (h i) fun _ => same_bind (SameArray.loadScalarUnchecked u a _) fun _ =>
      same_bind (same_refl _) fun _ => same_strideLoop u a h n (i + 1) _

theorem udiv_ne_ub (a b : Nat) : udiv a b ≠ ub := by unfold udiv; split <;> simp
theorem udiv_ne_hang (a b : Nat) : udiv a b ≠ hang := by unfold udiv; split <;> simp

theorem bind_ne_ub {α β : Type} {x : Res α} {f : α → Res β} (h : x ≠ ub) (hf : ∀ a, f a ≠ ub) :
    (x >>= f) ≠ ub := by
  cases x with
  | ok a => exact hf a
  | panic => simp
  | ub => exact absurd rfl h
  | hang => simp

theorem bind_ne_hang {α β : Type} {x : Res α} {f : α → Res β} (h : x ≠ hang) (hf : ∀ a, f a ≠ hang) :
    (x >>= f) ≠ hang := by
  cases x with
  | ok a => exact hf a
  | panic => simp
  | ub => simp
  | hang => exact absurd rfl h

theorem same_strideLoad [SameArray A] (u : Nat) (s : PackedStride A α w) (o : Nat) :
    Same (PackedStride.loadUnchecked (debugOf u) s o) (PackedStride.loadUnchecked (releaseOf u) s o) := by
  unfold PackedStride.loadUnchecked
  refine agree_extra (usub_ne_ub _ _ _) (usub_ne_hang _ _ _) fun _ => ?_
  refine agree_extra (umul_ne_ub _ _ _) (umul_ne_hang _ _ _) fun _ => ?_
  refine agree_extra (uadd_ne_ub _ _ _) (uadd_ne_hang _ _ _) fun _ => ?_
  refine agree_extra (SameLen.len_ub u s.iter) (SameLen.len_hang u s.iter) fun _ => ?_
  refine agree_extra (assert_ne_ub _) (assert_ne_hang _) fun _ => ?_
  exact same_strideLoop u s.iter (fun i => same_bind (same_uadd _ _) fun _ =>
    same_bind (same_umul _ _) fun _ => same_uadd _ _) _ _ _

instance sameArrayStride [SameArray A] : SameArray (PackedStride A α w) where
  len u s := same_bind (SameLen.len u s.iter) fun _ => same_refl _
  len_ub u s := bind_ne_ub (SameLen.len_ub u s.iter) fun _ => udiv_ne_ub _ _
  len_hang u s := bind_ne_hang (SameLen.len_hang u s.iter) fun _ => udiv_ne_hang _ _
  load u s o := same_bind (same_usub _ _) fun _ => same_bind (same_uadd _ _) fun _ =>
    same_bind (same_umul _ _) fun _ => same_bind (same_uadd _ _) fun _ =>
      same_bind (SameLen.len u s.iter) fun _ => same_bind (same_refl _) fun _ => same_strideLoad u s o
  loadUnchecked := same_strideLoad
  loadScalar u s _ := same_bind (same_umul _ _) fun _ => same_bind (same_uadd _ _) fun _ =>
    SameArray.loadScalar u s.iter _
  loadScalarUnchecked u s _ := same_bind (same_umul _ _) fun _ => same_bind (same_uadd _ _) fun _ =>
    SameArray.loadScalarUnchecked u s.iter _

omit [SIMDSized A] [SIMDArray A α w] [Packable α] in
theorem agree_strideAdvance (u : Nat) (s : PackedStride A α w) (k : Nat) :
    Same (PackedStride.advance (debugOf u) s k) (PackedStride.advance (releaseOf u) s k) :=
  same_bind (same_umul _ _) fun _ => same_bind (same_uadd _ _) fun _ => rfl

instance sameIterableStride [SameArray A] : SameIterable (PackedStride A α w) where
  next u x _ h := by
    cases h
    exact same_bind (same_umul _ _) fun _ => same_bind (same_uadd _ _) fun _ =>
      same_bind (SameLen.len u x.iter) fun _ =>
        agree_ite (same_bind (same_strideLoop u x.iter (fun i => same_bind (same_umul _ _) fun _ =>
            same_uadd _ _) _ _ _) fun _ =>
          same_bind (agree_strideAdvance u x _) fun _ => ⟨rfl, rfl⟩) ⟨rfl, rfl⟩
  len u x _ h := by
    cases h
    exact same_bind (same_bind (SameLen.len u x.iter) fun _ => same_refl _) fun _ => same_refl _
  scalarPos u _ _ h := by cases h; exact same_bind (same_usub _ _) fun _ => same_refl _
  advance u x _ h k := by cases h; exact agree_strideAdvance u x k
  dflt h := by cases h; rfl
  vectorPos u _ _ h := by
    cases h
    exact same_bind (same_usub _ _) fun _ => same_bind (same_umul _ _) fun _ => same_refl _
  vecLen u x _ h := by cases h; exact same_bind (SameLen.len u x) fun _ => same_refl _
  scalarLen u x _ h := by cases h; exact SameLen.len u x

instance sameStride [SameArray A] : SameIterator (PackedStride A α w) where
  end_ u x _ h := by
    cases h
    exact agree_blanketEnd u x

end Stride

section Map
variable {I σ α β : Type} {w w' : Nat} [SIMDSized I] [Twin I]

/-- Closures of a map which are compiled differently: same outcome, unless the closure of the debug
build panics. -/
instance twinMap : Twin (SIMDMap I σ α w β w') where
  twin x y := twin x.iter y.iter ∧ x.st = y.st ∧ ∀ st v, Same (x.func st v) (y.func st v)
  refl _ := ⟨Twin.refl _, rfl, fun _ _ => same_refl _⟩

instance sameIterableMap [SIMDIterable I α w] [Packable β] [SameIterable I] :
    SameIterable (SIMDMap I σ α w β w') where
  next u x _ h := by
    refine agree_bind (SameIterable.next u h.1) fun p q hpq => ?_
    obtain ⟨r, it⟩ := p
    obtain ⟨r', it'⟩ := q
    obtain ⟨hr, hit⟩ := hpq
    cases hr
    cases r with
    | none => exact ⟨rfl, hit, h.2⟩
    | some v =>
      refine same_bind (h.2.1 ▸ h.2.2 x.st v) fun p => ?_
      exact ⟨rfl, hit, rfl, h.2.2⟩
  len u _ _ h := SameIterable.len (I := I) u h.1
  scalarPos u _ _ h := SameIterable.scalarPos (I := I) u h.1
  advance u _ _ h k := agree_bind (SameIterable.advance u h.1 k) fun _ _ hit => ⟨hit, h.2⟩
  dflt _ := rfl
  vectorPos u _ _ h := same_bind (SameIterable.scalarPos u h.1) fun _ => same_refl _
  vecLen u _ _ h := same_bind (SameIterable.len u h.1) fun _ => same_refl _
  scalarLen u _ _ h := SameIterable.len u h.1

instance sameMap [SIMDIterator I α w] [Packable α] [Packable β] [SameIterator I] :
    SameIterator (SIMDMap I σ α w β w') where
  end_ u x _ h := by
    refine agree_bind (SameIterator.end_ u h.1) fun p q hpq => ?_
    obtain ⟨r, it⟩ := p
    obtain ⟨r', it'⟩ := q
    obtain ⟨hr, hit⟩ := hpq
    cases hr
    rcases r with _ | ⟨v, n⟩
    · exact ⟨rfl, hit, h.2⟩
    · refine same_bind (same_umul _ _) fun _ => same_bind (same_refl _) fun _ => ?_
      refine same_bind (h.2.1 ▸ h.2.2 x.st v) fun p => ?_
      exact ⟨rfl, hit, rfl, h.2.2⟩

end Map

section Zips

instance sameRestUnit : SameRest Unit where
  lenDiffers _ _ _ := rfl
  nextAll _ _ _ := rfl
  endAll _ _ _ _ := rfl

instance sameRestCons {T R α γ : Type} {w : Nat} [SIMDSized T] [SIMDIterable T α w] [SIMDArray T α w]
    [ZipRest R γ] [Twin T] [SameIterable T] [SameArray T] [SameRest R] : SameRest (T × R) where
  lenDiffers u r n := same_bind (SameIterable.len u (Twin.refl r.1)) fun _ =>
    agree_ite rfl (SameRest.lenDiffers u r.2 n)
  nextAll u r pos := same_bind (same_nextUnchecked u r.1 pos) fun _ =>
    same_bind (SameRest.nextAll u r.2 pos) fun _ => rfl
  endAll u r pos n := same_bind (same_endUnchecked u r.1 pos n) fun _ =>
    same_bind (SameRest.endAll u r.2 pos n) fun _ => rfl

variable {I R α γ : Type} {w : Nat} [SIMDSized I] [SIMDIterator I α w] [Packable α] [ZipRest R γ] [Twin I]
  [SameIterator I] [SameRest R]

instance twinZip {I R : Type} [Twin I] : Twin (Zip I R) where
  twin x y := twin x.first y.first ∧ x.rest = y.rest
  refl _ := ⟨Twin.refl _, rfl⟩

instance sameZip : SameZipped (Zip I R) where
  width _ := rfl
  size _ := rfl
  next u x _ h := by
    refine same_bind (SameIterable.scalarPos u h.1) fun pos => ?_
    refine agree_bind (SameIterable.next u h.1) fun p q hpq => ?_
    obtain ⟨r, it⟩ := p
    obtain ⟨r', it'⟩ := q
    obtain ⟨hr, hit⟩ := hpq
    cases hr
    cases r with
    | none => exact ⟨rfl, hit, h.2⟩
    | some v => exact same_bind (h.2 ▸ SameRest.nextAll u x.rest pos) fun _ => ⟨rfl, hit, h.2⟩
  end_ u x _ h := by
    refine same_bind (SameIterable.scalarPos u h.1) fun pos => ?_
    refine agree_bind (SameIterator.end_ u h.1) fun p q hpq => ?_
    obtain ⟨r, it⟩ := p
    obtain ⟨r', it'⟩ := q
    obtain ⟨hr, hit⟩ := hpq
    cases hr
    rcases r with _ | ⟨v, n⟩
    · exact ⟨rfl, hit, h.2⟩
    · exact same_bind (h.2 ▸ SameRest.endAll u x.rest pos n) fun _ => ⟨rfl, hit, h.2⟩
  len u _ _ h := SameIterable.len u h.1
  scalarPos u _ _ h := SameIterable.scalarPos u h.1
  advance u _ _ h k := agree_bind (SameIterable.advance u h.1 k) fun _ _ hit => ⟨hit, h.2⟩
  dflt {x y} h := by
    show (dflt x.first, ZipRest.defaultAll x.rest) = (dflt y.first, ZipRest.defaultAll y.rest)
    rw [SameIterable.dflt h.1, h.2]
  scalarLen u _ _ h := SameIterable.len u h.1
  vectorPos u _ _ h := same_bind (SameIterable.scalarPos u h.1) fun _ => same_refl _
  vectorLen u _ _ h := same_bind (SameIterable.len u h.1) fun _ => same_refl _

instance twinStrideZip {I : Type} [Twin I] : Twin (StrideZip I α w) where
  twin x y := x.base = y.base ∧ x.peek = y.peek ∧ twin x.iter y.iter
  refl _ := ⟨rfl, rfl, Twin.refl _⟩

instance sameStrideZip : SameZipped (StrideZip I α w) where
  width _ := rfl
  size _ := rfl
  next u _ _ h := by
    refine agree_bind (SameIterable.next u h.2.2) fun p q hpq => ?_
    obtain ⟨r, it⟩ := p
    obtain ⟨r', it'⟩ := q
    obtain ⟨hr, hit⟩ := hpq
    cases hr
    cases r with
    | none => exact ⟨rfl, h.1, h.2.1, hit⟩
    | some v =>
      refine agree_bind (SameIterable.next u hit) fun p q hpq => ?_
      obtain ⟨r, it⟩ := p
      obtain ⟨r', it'⟩ := q
      obtain ⟨hr, hit⟩ := hpq
      cases hr
      cases r with
      | none => exact ⟨rfl, h.1, rfl, hit⟩
      | some v => exact ⟨rfl, h.1, h.2.1, hit⟩
  end_ u x y h := by
    obtain ⟨b, pk, i⟩ := x
    obtain ⟨b', pk', i'⟩ := y
    obtain ⟨hb, hp, hi⟩ := h
    cases hb
    cases hp
    refine agree_bind (SameIterable.next u hi) fun p q hpq => ?_
    obtain ⟨first, it⟩ := p
    obtain ⟨first', it'⟩ := q
    obtain ⟨hr, hit⟩ := hpq
    cases hr
    refine agree_bind (SameIterator.end_ u hit) fun p q hpq => ?_
    obtain ⟨e, it⟩ := p
    obtain ⟨e', it'⟩ := q
    obtain ⟨hr, hit2⟩ := hpq
    cases hr
    have hd : dflt it = dflt it' := SameIterable.dflt hit2
    simp only [hd]
    cases first with
    | some v => exact same_bind (same_uadd _ _) fun _ => ⟨rfl, rfl, rfl, hit2⟩
    | none =>
      cases pk with
      | some v => exact same_bind (same_uadd _ _) fun _ => ⟨rfl, rfl, rfl, hit2⟩
      | none => exact agree_ite ⟨rfl, rfl, rfl, hit2⟩ ⟨rfl, rfl, rfl, hit2⟩
  len u _ _ h := same_bind (SameIterable.len u h.2.2) fun _ => rfl
  scalarPos u x _ h := same_bind (SameIterable.scalarPos u h.2.2) fun p =>
    same_bind (h.1 ▸ same_usub p x.base) fun _ => rfl
  advance u _ _ h k := same_bind (same_umul _ _) fun a =>
    agree_bind (SameIterable.advance u h.2.2 a) fun _ _ hit => ⟨h.1, h.2.1, hit⟩
  dflt _ := rfl
  scalarLen u _ _ h := same_bind (SameSized.scalarLen u h.2.2) fun _ => rfl
  vectorPos u _ _ h := same_bind (SameIterable.vectorPos u h.2.2) fun p =>
    same_bind (h.1 ▸ same_refl _) fun _ => same_bind (same_usub _ _) fun _ => rfl
  vectorLen u _ _ h := same_bind (same_bind (SameSized.scalarLen u h.2.2) fun _ => rfl) fun _ => same_refl _

end Zips

section ZipMap
variable {Z σ γ β : Type} {w' : Nat} [SIMDZippedIterator Z γ] [Twin Z] [SameZipped Z] [Packable β]

instance twinZipMap {Z : Type} [Twin Z] : Twin (SIMDZipMap Z σ γ β w') where
  twin x y := twin x.iter y.iter ∧ x.st = y.st ∧ ∀ st v, Same (x.func st v) (y.func st v)
  refl _ := ⟨Twin.refl _, rfl, fun _ _ => same_refl _⟩

instance sameIterableZipMap : SameIterable (SIMDZipMap Z σ γ β w') where
  next u x _ h := by
    refine agree_bind (SameZipped.next u h.1) fun p q hpq => ?_
    obtain ⟨r, it⟩ := p
    obtain ⟨r', it'⟩ := q
    obtain ⟨hr, hit⟩ := hpq
    cases hr
    cases r with
    | none => exact ⟨rfl, hit, h.2⟩
    | some v =>
      refine same_bind (h.2.1 ▸ h.2.2 x.st v) fun p => ?_
      exact ⟨rfl, hit, rfl, h.2.2⟩
  len u _ _ h := SameZipped.len u h.1
  scalarPos u _ _ h := SameZipped.scalarPos u h.1
  advance u _ _ h k := agree_bind (SameZipped.advance u h.1 k) fun _ _ hit => ⟨hit, h.2⟩
  dflt _ := rfl
  vectorPos u _ _ h := same_bind (SameZipped.scalarPos u h.1) fun _ => same_refl _
  vecLen u _ _ h := SameZipped.vectorLen u h.1
  scalarLen u _ _ h := SameZipped.scalarLen u h.1

instance sameZipMap : SameIterator (SIMDZipMap Z σ γ β w') where
  end_ u x _ h := by
    refine agree_bind (SameZipped.end_ u h.1) fun p q hpq => ?_
    obtain ⟨r, it⟩ := p
    obtain ⟨r', it'⟩ := q
    obtain ⟨hr, hit⟩ := hpq
    cases hr
    rcases r with _ | ⟨v, n⟩
    · exact ⟨rfl, hit, h.2⟩
    · have hs : SIMDZippedIterator.size it = SIMDZippedIterator.size it' := SameZipped.size hit
      simp only [hs]
      refine same_bind (same_umul _ _) fun _ => same_bind (same_refl _) fun _ => ?_
      refine same_bind (h.2.1 ▸ h.2.2 x.st v) fun p => ?_
      exact ⟨rfl, hit, rfl, h.2.2⟩

end ZipMap

section Adapter
variable {ρ α : Type} {w : Nat} [ScalarIter ρ α]

instance twinAdapter {ρ : Type} : Twin (AnyAdapter ρ α w) := ⟨Eq, fun _ => rfl⟩

omit [ScalarIter ρ α] in
theorem agree_adapterAdvance (u : Nat) (a : AnyAdapter ρ α w) (k : Nat) :
    Same (AnyAdapter.advance (debugOf u) a k) (AnyAdapter.advance (releaseOf u) a k) :=
  same_bind (same_uadd _ _) fun _ => rfl

theorem same_adapterLoop (u : Nat) : ∀ (n o : Nat) (a : AnyAdapter ρ α w),
    Same (AnyAdapter.nextLoop (debugOf u) n o a) (AnyAdapter.nextLoop (releaseOf u) n o a)
  | 0, _, _ => rfl
  | n + 1, o, a => by
    refine same_bind (same_refl _) fun p => ?_
    obtain ⟨r, it⟩ := p
    cases r with
    | none => trivial
    | some x => exact same_bind (same_replaceUnchecked _ _ _) fun _ => same_adapterLoop u n (o + 1) _

theorem same_adapterEnd (u : Nat) : ∀ (fuel : Nat) (it : ρ) (o : Nat) (v : Vector α w),
    Same (AnyAdapter.endLoop (debugOf u) fuel it o v) (AnyAdapter.endLoop (releaseOf u) fuel it o v)
  | 0, _, _, _ => trivial
  | fuel + 1, it, o, v => by
    refine same_bind (same_refl _) fun p => ?_
    obtain ⟨r, it⟩ := p
    cases r with
    | none => rfl
    | some x => exact same_bind (same_replaceUnchecked _ _ _) fun _ => same_bind (same_usub _ _) fun _ =>
        same_adapterEnd u fuel it _ _

instance sameIterableAdapter : SameIterable (AnyAdapter ρ α w) where
  next u _ _ h := by
    cases h
    exact same_bind (same_uadd _ _) fun _ => same_bind (same_refl _) fun _ =>
      agree_ite (same_bind (same_adapterLoop u _ _ _) fun _ => same_bind (agree_adapterAdvance u _ _) fun _ =>
        ⟨rfl, rfl⟩) ⟨rfl, rfl⟩
  len u _ _ h := by cases h; exact same_refl _
  scalarPos u _ _ h := by cases h; exact same_refl _
  advance u x _ h k := by cases h; exact agree_adapterAdvance u x k
  dflt h := by cases h; rfl
  vectorPos u _ _ h := by cases h; exact same_refl _
  vecLen u _ _ h := by cases h; exact same_refl _
  scalarLen u _ _ h := by cases h; exact same_refl _

instance sameAdapter : SameIterator (AnyAdapter ρ α w) where
  end_ u _ _ h := by
    cases h
    refine same_bind (same_refl _) fun _ => agree_ite ?_ ⟨rfl, rfl⟩
    refine same_bind (same_usub _ _) fun _ => same_bind (same_adapterEnd u _ _ _ _) fun p => ?_
    exact agree_bind (agree_finalize u (Twin.refl _)) fun _ _ h => by cases h; exact ⟨rfl, rfl⟩

end Adapter

/-! ### Consumers -/

/-- The relation between the results of a consumer: twin iterators, equal results. -/
abbrev Left {X I : Type} [Twin I] (p q : I × X) : Prop := twin p.1 q.1 ∧ p.2 = q.2

section Consumers
variable {I α : Type} {w : Nat} [SIMDSized I] [SIMDIterator I α w] [Twin I] [SameIterator I]

theorem agree_reduceLoop {A σ : Type} (u : Nat) {f g : σ → A → Vector α w → Res (A × σ)}
    (hf : ∀ st a v, Same (f st a v) (g st a v)) : ∀ (fuel : Nat) {x y : I} (_ : twin x y) (a : A) (st : σ),
    Agree Left (reduceLoop (debugOf u) f fuel x a st) (reduceLoop (releaseOf u) g fuel y a st)
  | 0, _, _, _, _, _ => trivial
  | fuel + 1, x, y, h, a, st => by
    refine agree_bind (SameIterable.next u h) fun p q hpq => ?_
    obtain ⟨r, it⟩ := p
    obtain ⟨r', it'⟩ := q
    obtain ⟨hr, hit⟩ := hpq
    cases hr
    cases r with
    | none => exact ⟨hit, rfl⟩
    | some v => exact same_bind (hf _ _ _) fun _ => agree_reduceLoop u hf fuel hit _ _

theorem agree_reduce {A σ : Type} (u : Nat) {f g : σ → A → Vector α w → Res (A × σ)}
    (hf : ∀ st a v, Same (f st a v) (g st a v)) (fuel : Nat) {x y : I} (h : twin x y) (a : A) (st : σ) :
    Agree Left (simdReduce (debugOf u) fuel x a st f) (simdReduce (releaseOf u) fuel y a st g) := by
  refine agree_bind (agree_reduceLoop u hf fuel h a st) fun p q hpq => ?_
  obtain ⟨it, acc, st⟩ := p
  obtain ⟨it', acc', st'⟩ := q
  obtain ⟨hit, hr⟩ := hpq
  cases hr
  refine agree_bind (SameIterator.end_ u hit) fun p q hpq => ?_
  obtain ⟨r, it⟩ := p
  obtain ⟨r', it'⟩ := q
  obtain ⟨hr, hit2⟩ := hpq
  cases hr
  rcases r with _ | ⟨v, n⟩
  · exact ⟨hit2, rfl⟩
  · exact same_bind (hf _ _ _) fun _ => ⟨hit2, rfl⟩

theorem agree_doEachLoop {σ : Type} (u : Nat) {f g : FnMut σ (Vector α w) Unit}
    (hf : ∀ st v, Same (f st v) (g st v)) : ∀ (fuel : Nat) {x y : I} (_ : twin x y) (st : σ),
    Agree Left (doEachLoop (debugOf u) f fuel x st) (doEachLoop (releaseOf u) g fuel y st)
  | 0, _, _, _, _ => trivial
  | fuel + 1, x, y, h, st => by
    refine agree_bind (SameIterable.next u h) fun p q hpq => ?_
    obtain ⟨r, it⟩ := p
    obtain ⟨r', it'⟩ := q
    obtain ⟨hr, hit⟩ := hpq
    cases hr
    cases r with
    | none => exact ⟨hit, rfl⟩
    | some v => exact same_bind (hf _ _) fun _ => agree_doEachLoop u hf fuel hit _

theorem agree_doEach {σ : Type} (u : Nat) {f g : FnMut σ (Vector α w) Unit}
    (hf : ∀ st v, Same (f st v) (g st v)) (fuel : Nat) {x y : I} (h : twin x y) (st : σ) :
    Agree Left (simdDoEach (debugOf u) fuel x st f) (simdDoEach (releaseOf u) fuel y st g) := by
  refine agree_bind (agree_doEachLoop u hf fuel h st) fun p q hpq => ?_
  obtain ⟨it, st⟩ := p
  obtain ⟨it', st'⟩ := q
  obtain ⟨hit, hr⟩ := hpq
  cases hr
  refine agree_bind (SameIterator.end_ u hit) fun p q hpq => ?_
  obtain ⟨r, it⟩ := p
  obtain ⟨r', it'⟩ := q
  obtain ⟨hr, hit2⟩ := hpq
  cases hr
  rcases r with _ | ⟨v, n⟩
  · exact ⟨hit2, rfl⟩
  · exact same_bind (hf _ _) fun _ => ⟨hit2, rfl⟩

theorem agree_fillLoop {κ : Type} (u : Nat) (inj : α → κ) : ∀ (fuel : Nat) {x y : I} (_ : twin x y)
    (buf : List κ) (o : Nat) (v : Vector α w),
    Agree Left (fillLoop (debugOf u) inj fuel x buf o v) (fillLoop (releaseOf u) inj fuel y buf o v)
  | 0, _, _, _, _, _, _ => trivial
  | fuel + 1, x, y, h, buf, o, v => by
    refine agree_bind (SameIterable.next u h) fun p q hpq => ?_
    obtain ⟨r, it⟩ := p
    obtain ⟨r', it'⟩ := q
    obtain ⟨hr, hit⟩ := hpq
    cases hr
    cases r with
    | none => exact ⟨hit, rfl⟩
    | some v => exact same_bind (same_storeUnchecked _ _ _) fun _ => same_bind (same_uadd _ _) fun _ =>
        agree_fillLoop u inj fuel hit _ _ _

theorem same_fillTailLoop {κ : Type} (u : Nat) (inj : α → κ) (p : Vector α w) (n o : Nat) :
    ∀ (k i : Nat) (buf : List κ),
    Same (fillTailLoop (debugOf u) inj p n o k i buf) (fillTailLoop (releaseOf u) inj p n o k i buf)
  | 0, _, _ => rfl
  | k + 1, i, _ => same_bind (same_uadd _ _) fun _ => same_bind (same_extractUnchecked _ _) fun _ =>
      same_bind (same_uadd _ _) fun _ => same_bind (same_refl _) fun _ =>
        same_fillTailLoop u inj p n o k (i + 1) _

theorem same_fillTail {κ : Type} (u : Nat) (inj : α → κ) (p : Vector α w) (n o : Nat) (v : Vector α w)
    (buf : List κ) :
    Same (fillTail (debugOf u) inj p n o v buf) (fillTail (releaseOf u) inj p n o v buf) :=
  agree_ite (same_bind (same_usub _ _) fun _ => same_bind (same_storeUnchecked _ _ _) fun _ =>
    same_bind (same_usub _ _) fun _ => same_storeUnchecked _ _ _)
    (same_bind (same_usub _ _) fun _ => same_fillTailLoop u inj p n o _ _ _)

theorem agree_fill [Packable α] (u fuel : Nat) {x y : I} (h : twin x y) (buf : List α) :
    Agree Left (scalarFill (debugOf u) fuel x buf) (scalarFill (releaseOf u) fuel y buf) := by
  refine agree_bind (agree_fillLoop u id fuel h buf 0 _) fun p q hpq => ?_
  obtain ⟨it, buf, o, v⟩ := p
  obtain ⟨it', buf', o', v'⟩ := q
  obtain ⟨hit, hr⟩ := hpq
  cases hr
  refine agree_bind (SameIterator.end_ u hit) fun p q hpq => ?_
  obtain ⟨r, it⟩ := p
  obtain ⟨r', it'⟩ := q
  obtain ⟨hr, hit2⟩ := hpq
  cases hr
  rcases r with _ | ⟨v, n⟩
  · exact ⟨hit2, rfl⟩
  · exact same_bind (same_fillTail u _ _ _ _ _ _) fun _ => ⟨hit2, rfl⟩

theorem agree_collect [Packable α] (u fuel : Nat) {x y : I} (h : twin x y) :
    Agree Left (scalarCollect (debugOf u) fuel x) (scalarCollect (releaseOf u) fuel y) := by
  refine same_bind (SameIterable.len u h) fun _ => same_bind (same_uadd _ _) fun _ =>
    same_bind (same_umul _ _) fun _ => ?_
  refine same_bind (SameIterable.len u h) fun _ => same_bind (same_uadd _ _) fun _ =>
    same_bind (same_umul _ _) fun _ => same_bind (same_refl _) fun ret => ?_
  refine agree_bind (agree_fillLoop u some fuel h _ 0 _) fun p q hpq => ?_
  obtain ⟨it, buf, o, v⟩ := p
  obtain ⟨it', buf', o', v'⟩ := q
  obtain ⟨hit, hr⟩ := hpq
  cases hr
  refine agree_bind (SameIterator.end_ u hit) fun p q hpq => ?_
  obtain ⟨r, it⟩ := p
  obtain ⟨r', it'⟩ := q
  obtain ⟨hr, hit2⟩ := hpq
  cases hr
  rcases r with _ | ⟨v, n⟩
  · exact same_bind (SameIterable.len u hit2) fun _ => same_bind (same_umul _ _) fun _ =>
      same_bind (same_refl _) fun _ => ⟨hit2, rfl⟩
  · exact same_bind (same_fillTail u _ _ _ _ _ _) fun _ => same_bind (same_uadd _ _) fun _ =>
      same_bind (same_usub _ _) fun _ => same_bind (same_refl _) fun _ => ⟨hit2, rfl⟩

theorem agree_fillAllLoop {κ : Type} (u : Nat) (inj : α → κ) : ∀ (fuel : Nat) {x y : I} (_ : twin x y)
    (buf : List κ) (o : Nat),
    Agree Left (fillAllLoop (debugOf u) inj fuel x buf o) (fillAllLoop (releaseOf u) inj fuel y buf o)
  | 0, _, _, _, _, _ => trivial
  | fuel + 1, x, y, h, buf, o => by
    refine agree_bind (SameIterable.next u h) fun p q hpq => ?_
    obtain ⟨r, it⟩ := p
    obtain ⟨r', it'⟩ := q
    obtain ⟨hr, hit⟩ := hpq
    cases hr
    cases r with
    | none => exact ⟨hit, rfl⟩
    | some v => exact same_bind (same_storeUnchecked _ _ _) fun _ => same_bind (same_uadd _ _) fun _ =>
        agree_fillAllLoop u inj fuel hit _ _

theorem agree_fillAllCells {κ : Type} (u : Nat) (inj : α → κ) (fuel : Nat) {x y : I} (h : twin x y)
    (buf : List κ) : Agree Left (scalarFillAllCells (debugOf u) inj fuel x buf)
      (scalarFillAllCells (releaseOf u) inj fuel y buf) := by
  refine agree_bind (agree_fillAllLoop u inj fuel h buf 0) fun p q hpq => ?_
  obtain ⟨it, buf, o⟩ := p
  obtain ⟨it', buf', o'⟩ := q
  obtain ⟨hit, hr⟩ := hpq
  cases hr
  refine agree_bind (SameIterator.end_ u hit) fun p q hpq => ?_
  obtain ⟨r, it⟩ := p
  obtain ⟨r', it'⟩ := q
  obtain ⟨hr, hit2⟩ := hpq
  cases hr
  rcases r with _ | ⟨v, n⟩
  · exact ⟨hit2, rfl⟩
  · exact same_bind (same_storeUnchecked _ _ _) fun _ => ⟨hit2, rfl⟩

theorem agree_fillAll (u fuel : Nat) {x y : I} (h : twin x y) (buf : List α) :
    Agree Left (scalarFillAll (debugOf u) fuel x buf) (scalarFillAll (releaseOf u) fuel y buf) :=
  agree_fillAllCells u id fuel h buf

theorem agree_collectAll (u fuel : Nat) {x y : I} (h : twin x y) :
    Agree Left (scalarCollectAll (debugOf u) fuel x) (scalarCollectAll (releaseOf u) fuel y) := by
  refine same_bind (SameIterable.len u h) fun _ => same_bind (same_uadd _ _) fun _ =>
    same_bind (same_umul _ _) fun _ => ?_
  refine same_bind (SameIterable.len u h) fun _ => same_bind (same_refl _) fun _ => ?_
  refine agree_bind (agree_fillAllCells u some fuel h _) fun p q hpq => ?_
  obtain ⟨it, buf⟩ := p
  obtain ⟨it', buf'⟩ := q
  obtain ⟨hit, hr⟩ := hpq
  cases hr
  exact ⟨hit, rfl⟩

/-- Twins of `Unrolled` values: twin iterators, equal contents of the buffer. -/
instance twinUnrolled {I : Type} [Twin I] : Twin (Unrolled I α w) where
  twin x y := twin x.iter y.iter ∧ x.amt = y.amt ∧ x.scratch = y.scratch
  refl _ := ⟨Twin.refl _, rfl, rfl⟩

theorem agree_unrolledLoop (u : Nat) : ∀ (k i : Nat) {x y : Unrolled I α w} (_ : twin x y),
    Agree Both (Unrolled.nextLoop (debugOf u) k i x) (Unrolled.nextLoop (releaseOf u) k i y)
  | 0, _, _, _, h => ⟨rfl, h⟩
  | k + 1, i, x, y, h => by
    refine agree_bind (SameIterable.next u h.1) fun p q hpq => ?_
    obtain ⟨r, it⟩ := p
    obtain ⟨r', it'⟩ := q
    obtain ⟨hr, hit⟩ := hpq
    cases hr
    cases r with
    | none => exact ⟨rfl, hit, h.2⟩
    | some v =>
      by_cases hi : i < 8
      · simp only [hi, dif_pos]
        exact agree_unrolledLoop u k (i + 1) ⟨hit, h.2.1, by rw [h.2.2]⟩
      · simp only [hi]
        trivial

theorem agree_unrolled (u : Nat) {x y : Unrolled I α w} (h : twin x y) :
    Agree Both (Unrolled.next (debugOf u) x) (Unrolled.next (releaseOf u) y) := by
  unfold Unrolled.next
  rw [← h.2.1]
  refine agree_bind (agree_unrolledLoop u _ 0 h) fun p q hpq => ?_
  obtain ⟨i, x⟩ := p
  obtain ⟨i', y⟩ := q
  obtain ⟨hr, hit⟩ := hpq
  cases hr
  exact agree_ite ⟨rfl, hit⟩ ⟨rfl, hit⟩

end Consumers

section ZipConsumers
variable {Z γ : Type} [SIMDZippedIterator Z γ] [Twin Z] [SameZipped Z]

theorem agree_zfinalize (u : Nat) {x y : Z} (h : twin x y) :
    Agree twin (zfinalize (debugOf u) x) (zfinalize (releaseOf u) y) :=
  same_bind (SameZipped.scalarLen u h) fun _ => same_bind (SameZipped.scalarPos u h) fun _ =>
    same_bind (same_usub _ _) fun _ => SameZipped.advance u h _

theorem agree_zreduceLoop {A σ : Type} (u : Nat) {f g : σ → A → γ → Res (A × σ)}
    (hf : ∀ st a v, Same (f st a v) (g st a v)) : ∀ (fuel : Nat) {x y : Z} (_ : twin x y) (a : A) (st : σ),
    Agree Left (zreduceLoop (debugOf u) f fuel x a st) (zreduceLoop (releaseOf u) g fuel y a st)
  | 0, _, _, _, _, _ => trivial
  | fuel + 1, x, y, h, a, st => by
    refine agree_bind (SameZipped.next u h) fun p q hpq => ?_
    obtain ⟨r, it⟩ := p
    obtain ⟨r', it'⟩ := q
    obtain ⟨hr, hit⟩ := hpq
    cases hr
    cases r with
    | none => exact ⟨hit, rfl⟩
    | some v => exact same_bind (hf _ _ _) fun _ => agree_zreduceLoop u hf fuel hit _ _

theorem agree_zreduce {A σ : Type} (u : Nat) {f g : σ → A → γ → Res (A × σ)}
    (hf : ∀ st a v, Same (f st a v) (g st a v)) (fuel : Nat) {x y : Z} (h : twin x y) (a : A) (st : σ) :
    Agree Left (zsimdReduce (debugOf u) fuel x a st f) (zsimdReduce (releaseOf u) fuel y a st g) := by
  refine agree_bind (agree_zreduceLoop u hf fuel h a st) fun p q hpq => ?_
  obtain ⟨it, acc, st⟩ := p
  obtain ⟨it', acc', st'⟩ := q
  obtain ⟨hit, hr⟩ := hpq
  cases hr
  refine agree_bind (SameZipped.end_ u hit) fun p q hpq => ?_
  obtain ⟨r, it⟩ := p
  obtain ⟨r', it'⟩ := q
  obtain ⟨hr, hit2⟩ := hpq
  cases hr
  rcases r with _ | ⟨v, n⟩
  · exact ⟨hit2, rfl⟩
  · exact same_bind (hf _ _ _) fun _ => ⟨hit2, rfl⟩

theorem agree_zdoEachLoop {σ : Type} (u : Nat) {f g : FnMut σ γ Unit}
    (hf : ∀ st v, Same (f st v) (g st v)) : ∀ (fuel : Nat) {x y : Z} (_ : twin x y) (st : σ),
    Agree Left (zdoEachLoop (debugOf u) f fuel x st) (zdoEachLoop (releaseOf u) g fuel y st)
  | 0, _, _, _, _ => trivial
  | fuel + 1, x, y, h, st => by
    refine agree_bind (SameZipped.next u h) fun p q hpq => ?_
    obtain ⟨r, it⟩ := p
    obtain ⟨r', it'⟩ := q
    obtain ⟨hr, hit⟩ := hpq
    cases hr
    cases r with
    | none => exact ⟨hit, rfl⟩
    | some v => exact same_bind (hf _ _) fun _ => agree_zdoEachLoop u hf fuel hit _

theorem agree_zdoEach {σ : Type} (u : Nat) {f g : FnMut σ γ Unit}
    (hf : ∀ st v, Same (f st v) (g st v)) (fuel : Nat) {x y : Z} (h : twin x y) (st : σ) :
    Agree Left (zsimdDoEach (debugOf u) fuel x st f) (zsimdDoEach (releaseOf u) fuel y st g) := by
  refine agree_bind (agree_zdoEachLoop u hf fuel h st) fun p q hpq => ?_
  obtain ⟨it, st⟩ := p
  obtain ⟨it', st'⟩ := q
  obtain ⟨hit, hr⟩ := hpq
  cases hr
  refine agree_bind (SameZipped.end_ u hit) fun p q hpq => ?_
  obtain ⟨r, it⟩ := p
  obtain ⟨r', it'⟩ := q
  obtain ⟨hr, hit2⟩ := hpq
  cases hr
  rcases r with _ | ⟨v, n⟩
  · exact ⟨hit2, rfl⟩
  · exact same_bind (hf _ _) fun _ => ⟨hit2, rfl⟩

end ZipConsumers

section ForEach
variable {A α : Type} {w : Nat} [SIMDSized A] [SIMDArray A α w] [SIMDArrayMut A α w]

theorem obs_hang {S β : Type} (s : S) : obs (MutM.lift (hang : Res β)) s = hang := rfl

theorem agree_forEachLoop [SameArray A] [SameArrayMut A] {σ : Type} (u : Nat)
    {f g : FnMut σ (Vector α w) (Vector α w)} (hf : ∀ st v, Same (f st v) (g st v)) :
    ∀ (fuel : Nat) (last : Vector α w) (st : σ) (it : SIMDIter A α w),
    Same (obs (forEachLoop (debugOf u) f fuel last st) it) (obs (forEachLoop (releaseOf u) g fuel last st) it)
  | 0, _, _, _ => trivial
  | fuel + 1, last, st, it => by
    unfold forEachLoop
    rw [obs_bind, obs_bind, obs_call, obs_call]
    refine agree_bind (SameIterable.next u (Twin.refl it)) fun p q hpq => ?_
    obtain ⟨r, it⟩ := p
    obtain ⟨r', it'⟩ := q
    obtain ⟨hr, hit⟩ := hpq
    cases hr
    cases hit
    cases r with
    | none => exact rfl
    | some v =>
      simp only [obs_bind, obs_lift, obs_get, obs_modify, ok_bind, bind_assoc]
      refine same_bind (hf _ _) fun p => ?_
      refine same_bind (same_refl _) fun _ => same_bind (same_usub _ _) fun _ => ?_
      unfold SIMDIter.dataStoreUnchecked
      simp only [ok_bind, bind_assoc]
      exact same_bind (SameArrayMut.storeUnchecked u _ _ _) fun _ => agree_forEachLoop u hf fuel _ _ _

omit [SIMDSized A] [SIMDArray A α w] in
theorem agree_forEachTail [SameArrayMut A] (u : Nat) (p : Vector α w) (n o : Nat) :
    ∀ (k i : Nat) (it : SIMDIter A α w),
    Same (obs (forEachTailLoop (debugOf u) p n o k i) it) (obs (forEachTailLoop (releaseOf u) p n o k i) it)
  | 0, _, _ => rfl
  | k + 1, i, it => by
    unfold forEachTailLoop
    simp only [obs_bind, obs_lift, obs_modify, ok_bind, bind_assoc]
    refine same_bind (same_uadd _ _) fun _ => same_bind (same_extractUnchecked _ _) fun _ =>
      same_bind (same_uadd _ _) fun _ => ?_
    unfold SIMDIter.dataStoreScalarUnchecked
    simp only [ok_bind, bind_assoc]
    exact same_bind (SameArrayMut.storeScalarUnchecked u _ _ _) fun _ => agree_forEachTail u p n o k _ _

theorem agree_forEach [SameArray A] [SameArrayMut A] [Packable α] {σ : Type} (u : Nat)
    {f g : FnMut σ (Vector α w) (Vector α w)} (hf : ∀ st v, Same (f st v) (g st v)) (fuel : Nat) (st : σ)
    (it : SIMDIter A α w) :
    Same (obs (simdForEach (debugOf u) fuel st f) it) (obs (simdForEach (releaseOf u) fuel st g) it) := by
  unfold simdForEach
  rw [obs_bind, obs_bind]
  refine same_bind (agree_forEachLoop u hf fuel _ _ _) fun p => ?_
  obtain ⟨⟨last, st⟩, it⟩ := p
  simp only [obs_bind, obs_lift, obs_get, obs_call, ok_bind, bind_assoc]
  refine same_bind (same_refl _) fun o => ?_
  refine agree_bind (SameIterator.end_ u (Twin.refl it)) fun p q hpq => ?_
  obtain ⟨r, it⟩ := p
  obtain ⟨r', it'⟩ := q
  obtain ⟨hr, hit⟩ := hpq
  cases hr
  cases hit
  rcases r with _ | ⟨p, n⟩
  · exact rfl
  · simp only [obs_bind, obs_lift, obs_get, ok_bind, bind_assoc]
    refine same_bind (hf _ _) fun p => same_bind (SameLen.len u it.data) fun len => ?_
    by_cases hw : w < len
    · simp only [hw, if_true, obs_bind, obs_modify, SIMDIter.dataStoreUnchecked, ok_bind, bind_assoc]
      refine same_bind (same_usub _ _) fun _ => same_bind (SameArrayMut.storeUnchecked u _ _ _) fun _ =>
        same_bind (same_usub _ _) fun _ => same_bind (SameArrayMut.storeUnchecked u _ _ _) fun _ => same_refl _
    · simp only [hw, if_false, obs_bind, obs_lift, ok_bind, bind_assoc]
      exact same_bind (same_usub _ _) fun _ => same_bind (agree_forEachTail u _ _ _ _ _ _) fun _ => same_refl _

end ForEach

/-! ### Element-wise iteration -/

section Unpacked
variable {T α : Type} {w : Nat} [SIMDSized T] [SIMDIterable T α w] [SIMDArray T α w] [Twin T]

instance twinUnpacked {T : Type} [Twin T] : Twin (Unpacked T) where
  twin x y := twin x.iter y.iter
  refl _ := Twin.refl _

theorem agree_unpacked [SameIterable T] [SameArray T] (u : Nat) (x : Unpacked T) :
    Agree Both (Unpacked.next (debugOf u) x) (Unpacked.next (releaseOf u) x) :=
  same_bind (SameIterable.scalarPos u (Twin.refl x.iter)) fun _ => same_bind (SameLen.len u x.iter) fun _ =>
    agree_ite (same_bind (SameIterable.scalarPos u (Twin.refl x.iter)) fun _ =>
      same_bind (SameArray.loadScalarUnchecked u x.iter _) fun _ =>
        agree_bind (SameIterable.advance u (Twin.refl x.iter) 1) fun _ _ h => ⟨rfl, h⟩) ⟨rfl, Twin.refl x.iter⟩

end Unpacked

/-! ### Targets with blends -/

section Blends
variable {n w : Nat}

theorem same_partitionMask (u off : Nat) :
    Same (partitionMask (n := n) (w := w) (debugOf u) off) (partitionMask (releaseOf u) off) := by
  unfold partitionMask
  refine same_bind (same_debugAssert _) fun _ => ?_
  refine agree_extra (umul_ne_ub _ _ _) (umul_ne_hang _ _ _) fun _ => ?_
  refine agree_extra (assert_ne_ub _) (assert_ne_hang _) fun _ => ?_
  exact same_bind (same_usub _ _) fun _ => same_refl _

theorem same_mergeBlend (u : Nat) (a b : Vector (BitVec n) w) (off : Nat) :
    Same (mergePartitionedBlend (debugOf u) a b off) (mergePartitionedBlend (releaseOf u) a b off) :=
  same_bind (same_partitionMask u off) fun _ => rfl

variable {T : Type} [SIMDSized T] [SIMDIterable T (BitVec n) w] [SIMDArray T (BitVec n) w]

theorem same_endVecBlend [SameArray T] (u : Nat) (t : T) (len pos e : Nat) :
    Same (endVecBlend (debugOf u) t len pos e) (endVecBlend (releaseOf u) t len pos e) :=
  agree_ite (same_bind (same_usub _ _) fun _ => same_bind (SameArray.loadUnchecked u t _) fun _ =>
    same_mergeBlend _ _ _ _) (same_elementLoop u t e _ _ _)

theorem agree_blanketEndBlend [Twin T] [SameIterable T] [SameArray T] (u : Nat) (t : T) :
    Agree Both (blanketEndBlend (debugOf u) t) (blanketEndBlend (releaseOf u) t) :=
  same_bind (SameIterable.scalarPos u (Twin.refl t)) fun _ => same_bind (SameLen.len u t) fun _ =>
    agree_ite (same_bind (same_usub _ _) fun _ => same_bind (same_usub _ _) fun _ =>
      same_bind (same_endVecBlend u t _ _ _) fun _ => agree_bind (agree_finalize u (Twin.refl t)) fun _ _ h =>
        ⟨rfl, h⟩) ⟨rfl, Twin.refl t⟩

theorem same_endUncheckedBlend [SameArray T] (u : Nat) (t : T) (o e : Nat) :
    Same (endUncheckedBlend (debugOf u) t o e) (endUncheckedBlend (releaseOf u) t o e) := by
  unfold endUncheckedBlend
  refine same_bind (SameLen.len u t) fun _ => same_bind (same_debugAssert _) fun _ => ?_
  refine agree_extra (usub_ne_ub _ _ _) (usub_ne_hang _ _ _) fun _ => ?_
  refine agree_extra (usub_ne_ub _ _ _) (usub_ne_hang _ _ _) fun _ => ?_
  refine agree_extra (assert_ne_ub _) (assert_ne_hang _) fun _ => ?_
  exact same_endVecBlend u t _ _ _

/-- Iterators without closures. -/
class NoClosure (T : Type) [Twin T] : Prop where
  eq {x y : T} : twin x y → x = y

instance noClosureIter {A α : Type} {w : Nat} : NoClosure (SIMDIter A α w) := ⟨id⟩
instance noClosureStride {A α : Type} {w : Nat} : NoClosure (PackedStride A α w) := ⟨id⟩

instance twinBlend {T : Type} [Twin T] : Twin (Blend T) where
  twin x y := twin x.it y.it
  refl _ := Twin.refl _

instance sameIterableBlend [Twin T] [SameIterable T] : SameIterable (Blend T) where
  next u _ _ h := agree_bind (SameIterable.next (I := T) u h) fun _ _ hpq => ⟨hpq.1, hpq.2⟩
  len u _ _ h := SameIterable.len (I := T) u h
  scalarPos u _ _ h := SameIterable.scalarPos (I := T) u h
  advance u _ _ h k := agree_bind (SameIterable.advance (I := T) u h k) fun _ _ hit => hit
  dflt h := SameIterable.dflt (I := T) h
  vectorPos u _ _ h := SameIterable.vectorPos (I := T) u h
  vecLen u _ _ h := same_bind (SameSized.scalarLen (I := T) u h) fun _ => same_refl _
  scalarLen u _ _ h := SameSized.scalarLen (I := T) u h

instance sameBlend [Twin T] [SameIterable T] [SameArray T] [NoClosure T] : SameIterator (Blend T) where
  end_ u x y h := by
    obtain ⟨x⟩ := x
    obtain ⟨y⟩ := y
    cases NoClosure.eq (T := T) h
    exact agree_bind (agree_blanketEndBlend (T := T) u x) fun _ _ hpq => ⟨hpq.1, hpq.2⟩

end Blends

/-! ### Programs -/

/-- The arrays of the library: slices, and iterators over arrays. -/
inductive Arrays : (A α : Type) → (w : Nat) → (sz : SIMDSized A) → SIMDArray A α w → Prop
  | slice (α : Type) (w : Nat) : Arrays (Slice α w) α w inferInstance inferInstance
  | iter {A α : Type} {w : Nat} {sz : SIMDSized A} {arr : SIMDArray A α w} :
    Arrays A α w sz arr → Arrays (SIMDIter A α w) α w inferInstance inferInstance
  | stride {A α : Type} {w : Nat} {sz : SIMDSized A} {arr : SIMDArray A α w} [Packable α] :
    Arrays A α w sz arr → Arrays (PackedStride A α w) α w inferInstance inferInstance

/-- Iterators over arrays, which are arrays themselves (`UnsafeIterator`). -/
inductive Cursors : (T α : Type) → (w : Nat) → (sz : SIMDSized T) → SIMDIterator T α w →
    SIMDArray T α w → Prop
  | iter {A α : Type} {w : Nat} {sz : SIMDSized A} {arr : SIMDArray A α w} :
    Arrays A α w sz arr → Cursors (SIMDIter A α w) α w inferInstance inferInstance inferInstance
  | stride {A α : Type} {w : Nat} {sz : SIMDSized A} {arr : SIMDArray A α w} [Packable α] :
    Arrays A α w sz arr → Cursors (PackedStride A α w) α w inferInstance inferInstance inferInstance

/-- The further iterators of a zip. -/
inductive Rests : (R γ : Type) → ZipRest R γ → Prop
  | nil : Rests Unit Unit inferInstance
  | cons {T α R γ : Type} {w : Nat} {sz : SIMDSized T} {it : SIMDIterator T α w} {arr : SIMDArray T α w}
      {zr : ZipRest R γ} : Cursors T α w sz it arr → Rests R γ zr → Rests (T × R) (Vector α w × γ) inferInstance

mutual

/-- An iterator in a debug build, and the same iterator in a release build: any state, with any closures
which have the same outcome in both builds unless they panic in the debug build. -/
inductive Compiled : (I α : Type) → (w : Nat) → (sz : SIMDSized I) → SIMDIterator I α w → I → I → Prop
  | cursor {T α : Type} {w : Nat} {sz : SIMDSized T} {it : SIMDIterator T α w} {arr : SIMDArray T α w}
      (x : T) : Cursors T α w sz it arr → Compiled T α w sz it x x
  | blend {T : Type} {n w : Nat} {sz : SIMDSized T} {it : SIMDIterator T (BitVec n) w}
      {arr : SIMDArray T (BitVec n) w} (x : Blend T) : Cursors T (BitVec n) w sz it arr →
    Compiled (Blend T) (BitVec n) w inferInstance inferInstance x x
  | adapter {ρ α : Type} {w : Nat} [ScalarIter ρ α] (x : AnyAdapter ρ α w) :
    Compiled (AnyAdapter ρ α w) α w inferInstance inferInstance x x
  | map {I α σ β : Type} {w w' : Nat} {sz : SIMDSized I} {it : SIMDIterator I α w} [Packable α] [Packable β]
      {x y : I} (st : σ) {f g : FnMut σ (Vector α w) (Vector β w')} :
    Compiled I α w sz it x y → (∀ st v, Same (f st v) (g st v)) →
    Compiled (SIMDMap I σ α w β w') β w' inferInstance inferInstance ⟨x, st, f⟩ ⟨y, st, g⟩
  | zipMap {Z γ σ β : Type} {w' : Nat} {zi : SIMDZippedIterator Z γ} [Packable β] {x y : Z} (st : σ)
      {f g : FnMut σ γ (Vector β w')} : CompiledZip Z γ zi x y → (∀ st v, Same (f st v) (g st v)) →
    Compiled (SIMDZipMap Z σ γ β w') β w' inferInstance inferInstance ⟨x, st, f⟩ ⟨y, st, g⟩

/-- The same for zips and `stride_zip`. -/
inductive CompiledZip : (Z γ : Type) → SIMDZippedIterator Z γ → Z → Z → Prop
  | zip {I α R γ : Type} {w : Nat} {sz : SIMDSized I} {it : SIMDIterator I α w} [Packable α]
      {zr : ZipRest R γ} {x y : I} (r : R) : Compiled I α w sz it x y → Rests R γ zr →
    CompiledZip (Zip I R) (Vector α w × γ) inferInstance ⟨x, r⟩ ⟨y, r⟩
  | strideZip {I α : Type} {w : Nat} {sz : SIMDSized I} {it : SIMDIterator I α w} [Packable α] {x y : I}
      (b : Nat) (p : Option (Vector α w)) : Compiled I α w sz it x y →
    CompiledZip (StrideZip I α w) (Vector α w × Vector α w) inferInstance ⟨b, p, x⟩ ⟨b, p, y⟩

end

section Good

theorem Arrays.same {A α : Type} {w : Nat} {sz : SIMDSized A} {arr : SIMDArray A α w}
    (h : Arrays A α w sz arr) : SameArray A := by
  induction h with
  | slice => infer_instance
  | iter h ih => exact sameArrayIter
  | stride h ih => exact sameArrayStride

theorem Cursors.same {T α : Type} {w : Nat} {sz : SIMDSized T} {it : SIMDIterator T α w}
    {arr : SIMDArray T α w} (h : Cursors T α w sz it arr) :
    ∃ _ : Twin T, SameIterator T ∧ SameArray T ∧ NoClosure T := by
  cases h with
  | iter h =>
    have := h.same
    exact ⟨inferInstance, inferInstance, inferInstance, inferInstance⟩
  | stride h =>
    have := h.same
    exact ⟨inferInstance, inferInstance, inferInstance, inferInstance⟩

theorem Rests.same {R γ : Type} {zr : ZipRest R γ} (h : Rests R γ zr) : SameRest R := by
  induction h with
  | nil => infer_instance
  | cons h _ ih =>
    obtain ⟨_, _, _, _⟩ := h.same
    exact sameRestCons

private def Good (I α : Type) (w : Nat) (sz : SIMDSized I) (it : SIMDIterator I α w) (x y : I) : Prop :=
  ∃ _ : Twin I, SameIterator I ∧ twin x y ∧ ∀ x' y' : I, twin x' y' → Compiled I α w sz it x' y'

private def GoodZip (Z γ : Type) (zi : SIMDZippedIterator Z γ) (x y : Z) : Prop :=
  ∃ _ : Twin Z, SameZipped Z ∧ twin x y ∧ ∀ x' y' : Z, twin x' y' → CompiledZip Z γ zi x' y'

private theorem good_cursor {T α : Type} {w : Nat} {sz : SIMDSized T} {it : SIMDIterator T α w}
    {arr : SIMDArray T α w} (x : T) (h : Cursors T α w sz it arr) : Good T α w sz it x x := by
  obtain ⟨t, h1, _, h3⟩ := h.same
  exact ⟨t, h1, Twin.refl x, fun x' y' h' => by cases h3.eq h'; exact .cursor x' h⟩

private theorem good_blend {T : Type} {n w : Nat} {sz : SIMDSized T} {it : SIMDIterator T (BitVec n) w}
    {arr : SIMDArray T (BitVec n) w} (x : Blend T) (h : Cursors T (BitVec n) w sz it arr) :
    Good (Blend T) (BitVec n) w inferInstance inferInstance x x := by
  obtain ⟨t, h1, _, h3⟩ := h.same
  refine ⟨inferInstance, inferInstance, Twin.refl x, fun x' y' h' => ?_⟩
  obtain ⟨x'⟩ := x'
  obtain ⟨y'⟩ := y'
  cases NoClosure.eq (T := T) h'
  exact .blend _ h

private theorem good_map {I α σ β : Type} {w w' : Nat} {sz : SIMDSized I} {it : SIMDIterator I α w}
    [Packable α] [Packable β] {x y : I} (st : σ) {f g : FnMut σ (Vector α w) (Vector β w')}
    (h : Good I α w sz it x y) (hf : ∀ st v, Same (f st v) (g st v)) :
    Good (SIMDMap I σ α w β w') β w' inferInstance inferInstance ⟨x, st, f⟩ ⟨y, st, g⟩ := by
  obtain ⟨t, h1, h2, h3⟩ := h
  refine ⟨inferInstance, inferInstance, ⟨h2, rfl, hf⟩, fun x' y' h' => ?_⟩
  obtain ⟨x', st', f'⟩ := x'
  obtain ⟨y', st'', g'⟩ := y'
  obtain ⟨k1, k2, k3⟩ := h'
  cases k2
  exact .map _ (h3 _ _ k1) k3

private theorem good_zipMap {Z γ σ β : Type} {w' : Nat} {zi : SIMDZippedIterator Z γ} [Packable β] {x y : Z}
    (st : σ) {f g : FnMut σ γ (Vector β w')} (h : GoodZip Z γ zi x y)
    (hf : ∀ st v, Same (f st v) (g st v)) :
    Good (SIMDZipMap Z σ γ β w') β w' inferInstance inferInstance ⟨x, st, f⟩ ⟨y, st, g⟩ := by
  obtain ⟨t, h1, h2, h3⟩ := h
  refine ⟨inferInstance, inferInstance, ⟨h2, rfl, hf⟩, fun x' y' h' => ?_⟩
  obtain ⟨x', st', f'⟩ := x'
  obtain ⟨y', st'', g'⟩ := y'
  obtain ⟨k1, k2, k3⟩ := h'
  cases k2
  exact .zipMap _ (h3 _ _ k1) k3

private theorem good_zip {I α R γ : Type} {w : Nat} {sz : SIMDSized I} {it : SIMDIterator I α w}
    [Packable α] {zr : ZipRest R γ} {x y : I} (r : R) (h : Good I α w sz it x y) (hr : Rests R γ zr) :
    GoodZip (Zip I R) (Vector α w × γ) inferInstance ⟨x, r⟩ ⟨y, r⟩ := by
  obtain ⟨t, h1, h2, h3⟩ := h
  have := hr.same
  refine ⟨inferInstance, inferInstance, ⟨h2, rfl⟩, fun x' y' h' => ?_⟩
  obtain ⟨x', r'⟩ := x'
  obtain ⟨y', r''⟩ := y'
  obtain ⟨k1, k2⟩ := h'
  cases k2
  exact .zip _ (h3 _ _ k1) hr

private theorem good_strideZip {I α : Type} {w : Nat} {sz : SIMDSized I} {it : SIMDIterator I α w}
    [Packable α] {x y : I} (b : Nat) (p : Option (Vector α w)) (h : Good I α w sz it x y) :
    GoodZip (StrideZip I α w) (Vector α w × Vector α w) inferInstance ⟨b, p, x⟩ ⟨b, p, y⟩ := by
  obtain ⟨t, h1, h2, h3⟩ := h
  refine ⟨inferInstance, inferInstance, ⟨rfl, rfl, h2⟩, fun x' y' h' => ?_⟩
  obtain ⟨b', p', x'⟩ := x'
  obtain ⟨b'', p'', y'⟩ := y'
  obtain ⟨k1, k2, k3⟩ := h'
  cases k1
  cases k2
  exact .strideZip _ _ (h3 _ _ k3)

private theorem good_adapter {ρ α : Type} {w : Nat} [ScalarIter ρ α] (x : AnyAdapter ρ α w) :
    Good (AnyAdapter ρ α w) α w inferInstance inferInstance x x :=
  ⟨inferInstance, inferInstance, rfl, fun x' y' h' => by cases h'; exact .adapter _⟩

private theorem Compiled.good {I α : Type} {w : Nat} {sz : SIMDSized I} {it : SIMDIterator I α w} {x y : I}
    (h : Compiled I α w sz it x y) : Good I α w sz it x y :=
  @Compiled.rec (fun I α w sz it x y _ => Good I α w sz it x y) (fun Z γ zi x y _ => GoodZip Z γ zi x y)
    (fun x h => good_cursor x h) (fun x h => good_blend x h) (fun x => good_adapter x)
    (fun st _ _ _ hf ih => good_map st ih hf) (fun st _ _ _ hf ih => good_zipMap st ih hf)
    (fun r _ hr ih => good_zip r ih hr) (fun b p _ ih => good_strideZip b p ih) I α w sz it x y h

private theorem CompiledZip.good {Z γ : Type} {zi : SIMDZippedIterator Z γ} {x y : Z}
    (h : CompiledZip Z γ zi x y) : GoodZip Z γ zi x y :=
  @CompiledZip.rec (fun I α w sz it x y _ => Good I α w sz it x y) (fun Z γ zi x y _ => GoodZip Z γ zi x y)
    (fun x h => good_cursor x h) (fun x h => good_blend x h) (fun x => good_adapter x)
    (fun st _ _ _ hf ih => good_map st ih hf) (fun st _ _ _ hf ih => good_zipMap st ih hf)
    (fun r _ hr ih => good_zip r ih hr) (fun b p _ ih => good_strideZip b p ih) Z γ zi x y h

end Good

theorem Agree.mono {α β : Type} {R S : α → β → Prop} {x : Res α} {y : Res β} (h : Agree R x y)
    (hRS : ∀ a b, R a b → S a b) : Agree S x y := by
  cases x <;> cases y <;> first | exact hRS _ _ h | trivial | exact h.elim

section Claims
variable {I α : Type} {w : Nat} {sz : SIMDSized I} {it : SIMDIterator I α w} {x y : I}

/-- **C146**: every method of an iterator. Where the debug build returns, the release build returns the
same value and leaves the same iterator behind; where the debug build has undefined behaviour or runs
forever, so has and does the release build. -/
theorem C146_iterator (h : Compiled I α w sz it x y) (u : Nat) :
    Agree (fun p q => p.1 = q.1 ∧ Compiled I α w sz it p.2 q.2) (SIMDIterable.next (debugOf u) x)
      (SIMDIterable.next (releaseOf u) y) ∧
    Agree (fun p q => p.1 = q.1 ∧ Compiled I α w sz it p.2 q.2) (SIMDIterator.end_ (debugOf u) x)
      (SIMDIterator.end_ (releaseOf u) y) ∧
    Same (SIMDIterable.len (debugOf u) x) (SIMDIterable.len (releaseOf u) y) ∧
    Same (scalarLen (debugOf u) x) (scalarLen (releaseOf u) y) ∧
    Same (vecLen (debugOf u) x) (vecLen (releaseOf u) y) ∧
    Same (scalarPos (debugOf u) x) (scalarPos (releaseOf u) y) ∧
    Same (vectorPos (debugOf u) x) (vectorPos (releaseOf u) y) ∧
    (∀ k, Agree (Compiled I α w sz it) (advance (debugOf u) x k) (advance (releaseOf u) y k)) ∧
    Agree (Compiled I α w sz it) (finalize (debugOf u) x) (finalize (releaseOf u) y) ∧
    dflt x = dflt y := by
  obtain ⟨t, h1, h2, h3⟩ := h.good
  refine ⟨(SameIterable.next u h2).mono fun a b k => ⟨k.1, h3 _ _ k.2⟩,
    (SameIterator.end_ u h2).mono fun a b k => ⟨k.1, h3 _ _ k.2⟩, SameIterable.len u h2,
    SameSized.scalarLen u h2, SameIterable.vecLen u h2, SameIterable.scalarPos u h2,
    SameIterable.vectorPos u h2, fun k => (SameIterable.advance u h2 k).mono h3,
    (agree_finalize u h2).mono h3, SameIterable.dflt h2⟩

/-- **C146**: every consumer of an iterator, with closures compiled for the two builds. -/
theorem C146_consumers (h : Compiled I α w sz it x y) [Packable α] (u fuel : Nat) :
    (∀ (A σ : Type) (a : A) (st : σ) (f g : σ → A → Vector α w → Res (A × σ)),
      (∀ st a v, Same (f st a v) (g st a v)) →
      Agree (fun p q => Compiled I α w sz it p.1 q.1 ∧ p.2 = q.2) (simdReduce (debugOf u) fuel x a st f)
        (simdReduce (releaseOf u) fuel y a st g)) ∧
    (∀ (σ : Type) (st : σ) (f g : FnMut σ (Vector α w) Unit), (∀ st v, Same (f st v) (g st v)) →
      Agree (fun p q => Compiled I α w sz it p.1 q.1 ∧ p.2 = q.2) (simdDoEach (debugOf u) fuel x st f)
        (simdDoEach (releaseOf u) fuel y st g)) ∧
    (∀ fill, Agree (fun p q => Compiled I α w sz it p.1 q.1 ∧ p.2 = q.2) (scalarFill (debugOf u) fuel x fill)
        (scalarFill (releaseOf u) fuel y fill)) ∧
    Agree (fun p q => Compiled I α w sz it p.1 q.1 ∧ p.2 = q.2) (scalarCollect (debugOf u) fuel x)
        (scalarCollect (releaseOf u) fuel y) ∧
    (∀ fill, Agree (fun p q => Compiled I α w sz it p.1 q.1 ∧ p.2 = q.2)
        (scalarFillAll (debugOf u) fuel x fill) (scalarFillAll (releaseOf u) fuel y fill)) ∧
    Agree (fun p q => Compiled I α w sz it p.1 q.1 ∧ p.2 = q.2) (scalarCollectAll (debugOf u) fuel x)
        (scalarCollectAll (releaseOf u) fuel y) := by
  obtain ⟨t, h1, h2, h3⟩ := h.good
  exact ⟨fun _ _ a st _ _ hf => (agree_reduce u hf fuel h2 a st).mono fun _ _ k => ⟨h3 _ _ k.1, k.2⟩,
    fun _ st _ _ hf => (agree_doEach u hf fuel h2 st).mono fun _ _ k => ⟨h3 _ _ k.1, k.2⟩,
    fun fill => (agree_fill u fuel h2 fill).mono fun _ _ k => ⟨h3 _ _ k.1, k.2⟩,
    (agree_collect u fuel h2).mono fun _ _ k => ⟨h3 _ _ k.1, k.2⟩,
    fun fill => (agree_fillAll u fuel h2 fill).mono fun _ _ k => ⟨h3 _ _ k.1, k.2⟩,
    (agree_collectAll u fuel h2).mono fun _ _ k => ⟨h3 _ _ k.1, k.2⟩⟩

/-- **C146**: `unroll`, with any contents of the buffer. -/
theorem C146_unrolled (h : Compiled I α w sz it x y) (u amt : Nat) (b : Vector (Vector α w) 8) :
    Agree (fun p q => p.1 = q.1 ∧ Compiled I α w sz it p.2.iter q.2.iter ∧ p.2.amt = q.2.amt ∧
        p.2.scratch = q.2.scratch)
      (Unrolled.next (debugOf u) ⟨x, amt, b⟩) (Unrolled.next (releaseOf u) ⟨y, amt, b⟩) ∧
    Same (Unrolled.chunkPos (debugOf u) (⟨x, amt, b⟩ : Unrolled I α w))
      (Unrolled.chunkPos (releaseOf u) (⟨y, amt, b⟩ : Unrolled I α w)) := by
  obtain ⟨t, h1, h2, h3⟩ := h.good
  exact ⟨(agree_unrolled u (x := ⟨x, amt, b⟩) (y := ⟨y, amt, b⟩) ⟨h2, rfl, rfl⟩).mono fun _ _ k =>
    ⟨k.1, h3 _ _ k.2.1, k.2.2⟩, same_bind (SameIterable.vectorPos u h2) fun _ => same_refl _⟩

/-- **C146**: the constructors of zips. -/
theorem C146_make_zip (h : Compiled I α w sz it x y) [Packable α] (u : Nat) :
    (∀ (R γ : Type) (zr : ZipRest R γ) (r : R), Rests R γ zr →
      Agree (CompiledZip (Zip I R) (Vector α w × γ) inferInstance) (zip (debugOf u) x r)
        (zip (releaseOf u) y r)) ∧
    Agree (CompiledZip (StrideZip I α w) (Vector α w × Vector α w) inferInstance) (strideZip (debugOf u) x)
      (strideZip (releaseOf u) y) := by
  obtain ⟨t, h1, h2, h3⟩ := h.good
  refine ⟨fun R γ zr r hr => ?_, same_bind (SameIterable.scalarPos u h2) fun p => .strideZip _ _ h⟩
  have := hr.same
  refine same_bind (SameIterable.len u h2) fun l => same_bind (SameRest.lenDiffers u r l) fun b => ?_
  cases b
  · exact .zip r h hr
  · trivial

variable {Z γ : Type} {zi : SIMDZippedIterator Z γ} {z z' : Z}

/-- **C146**: every method of a zip. -/
theorem C146_zip (h : CompiledZip Z γ zi z z') (u : Nat) :
    Agree (fun p q => p.1 = q.1 ∧ CompiledZip Z γ zi p.2 q.2) (SIMDZippedIterator.next (debugOf u) z)
      (SIMDZippedIterator.next (releaseOf u) z') ∧
    Agree (fun p q => p.1 = q.1 ∧ CompiledZip Z γ zi p.2 q.2) (SIMDZippedIterator.end_ (debugOf u) z)
      (SIMDZippedIterator.end_ (releaseOf u) z') ∧
    Same (SIMDZippedIterator.len (debugOf u) z) (SIMDZippedIterator.len (releaseOf u) z') ∧
    Same (SIMDZippedIterator.scalarLen (debugOf u) z) (SIMDZippedIterator.scalarLen (releaseOf u) z') ∧
    Same (SIMDZippedIterator.vectorLen (debugOf u) z) (SIMDZippedIterator.vectorLen (releaseOf u) z') ∧
    Same (SIMDZippedIterator.scalarPos (debugOf u) z) (SIMDZippedIterator.scalarPos (releaseOf u) z') ∧
    Same (SIMDZippedIterator.vectorPos (debugOf u) z) (SIMDZippedIterator.vectorPos (releaseOf u) z') ∧
    (∀ k, Agree (CompiledZip Z γ zi) (SIMDZippedIterator.advance (debugOf u) z k)
      (SIMDZippedIterator.advance (releaseOf u) z' k)) ∧
    Agree (CompiledZip Z γ zi) (zfinalize (debugOf u) z) (zfinalize (releaseOf u) z') ∧
    SIMDZippedIterator.dflt z = SIMDZippedIterator.dflt z' := by
  obtain ⟨t, h1, h2, h3⟩ := h.good
  exact ⟨(SameZipped.next u h2).mono fun a b k => ⟨k.1, h3 _ _ k.2⟩,
    (SameZipped.end_ u h2).mono fun a b k => ⟨k.1, h3 _ _ k.2⟩, SameZipped.len u h2,
    SameZipped.scalarLen u h2, SameZipped.vectorLen u h2, SameZipped.scalarPos u h2,
    SameZipped.vectorPos u h2, fun k => (SameZipped.advance u h2 k).mono h3,
    (agree_zfinalize u h2).mono h3, SameZipped.dflt h2⟩

/-- **C146**: every consumer of a zip. -/
theorem C146_zip_consumers (h : CompiledZip Z γ zi z z') (u fuel : Nat) :
    (∀ (A σ : Type) (a : A) (st : σ) (f g : σ → A → γ → Res (A × σ)),
      (∀ st a v, Same (f st a v) (g st a v)) →
      Agree (fun p q => CompiledZip Z γ zi p.1 q.1 ∧ p.2 = q.2) (zsimdReduce (debugOf u) fuel z a st f)
        (zsimdReduce (releaseOf u) fuel z' a st g)) ∧
    (∀ (σ : Type) (st : σ) (f g : FnMut σ γ Unit), (∀ st v, Same (f st v) (g st v)) →
      Agree (fun p q => CompiledZip Z γ zi p.1 q.1 ∧ p.2 = q.2) (zsimdDoEach (debugOf u) fuel z st f)
        (zsimdDoEach (releaseOf u) fuel z' st g)) := by
  obtain ⟨t, h1, h2, h3⟩ := h.good
  exact ⟨fun _ _ a st _ _ hf => (agree_zreduce u hf fuel h2 a st).mono fun _ _ k => ⟨h3 _ _ k.1, k.2⟩,
    fun _ st _ _ hf => (agree_zdoEach u hf fuel h2 st).mono fun _ _ k => ⟨h3 _ _ k.1, k.2⟩⟩

/-- **C146**: every method of an array. -/
theorem C146_array {A α : Type} {w : Nat} {sz : SIMDSized A} {arr : SIMDArray A α w}
    (h : Arrays A α w sz arr) (u : Nat) (a : A) :
    Same (scalarLen (debugOf u) a) (scalarLen (releaseOf u) a) ∧ ∀ o,
    Same (SIMDArray.load (debugOf u) a o) (SIMDArray.load (releaseOf u) a o) ∧
    Same (SIMDArray.loadUnchecked (debugOf u) a o) (SIMDArray.loadUnchecked (releaseOf u) a o) ∧
    Same (SIMDArray.loadScalar (debugOf u) a o) (SIMDArray.loadScalar (releaseOf u) a o) ∧
    Same (SIMDArray.loadScalarUnchecked (debugOf u) a o) (SIMDArray.loadScalarUnchecked (releaseOf u) a o) := by
  have := h.same
  exact ⟨SameLen.len u a, fun o => ⟨SameArray.load u a o, SameArray.loadUnchecked u a o,
    SameArray.loadScalar u a o, SameArray.loadScalarUnchecked u a o⟩⟩

/-- **C146**: every method of a mutable slice. -/
theorem C146_slice_mut {α : Type} {w : Nat} (u : Nat) (s : Slice α w) (v : Vector α w) (e : α) (o : Nat) :
    Same (SIMDArrayMut.store (debugOf u) s v o) (SIMDArrayMut.store (releaseOf u) s v o) ∧
    Same (SIMDArrayMut.storeUnchecked (debugOf u) s v o) (SIMDArrayMut.storeUnchecked (releaseOf u) s v o) ∧
    Same (SIMDArrayMut.storeScalar (debugOf u) s e o) (SIMDArrayMut.storeScalar (releaseOf u) s e o) ∧
    Same (SIMDArrayMut.storeScalarUnchecked (debugOf u) s e o)
      (SIMDArrayMut.storeScalarUnchecked (releaseOf u) s e o) :=
  ⟨SameArrayMut.store u s v o, SameArrayMut.storeUnchecked u s v o, SameArrayMut.storeScalar u s e o,
    SameArrayMut.storeScalarUnchecked u s e o⟩

/-- **C146**: element-wise iteration, and the unchecked methods zips use. -/
theorem C146_cursor {T α : Type} {w : Nat} {sz : SIMDSized T} {it : SIMDIterator T α w}
    {arr : SIMDArray T α w} (h : Cursors T α w sz it arr) (u : Nat) (t : T) :
    Same (Unpacked.next (debugOf u) (unpack t)) (Unpacked.next (releaseOf u) (unpack t)) ∧ ∀ o e,
    Same (nextUnchecked (debugOf u) t o) (nextUnchecked (releaseOf u) t o) ∧
    Same (endUnchecked (debugOf u) t o e) (endUnchecked (releaseOf u) t o e) := by
  obtain ⟨_, _, _, h3⟩ := h.same
  refine ⟨(agree_unpacked u ⟨t⟩).mono fun a b k => ?_, fun o e => ⟨same_nextUnchecked u t o,
    same_endUnchecked u t o e⟩⟩
  obtain ⟨r, ⟨a⟩⟩ := a
  obtain ⟨r', ⟨b⟩⟩ := b
  obtain ⟨k1, k2⟩ := k
  cases k1
  cases NoClosure.eq (T := T) k2
  rfl

/-- **C146**: `simd_for_each` over a slice: the same elements and the same iterator afterwards. -/
theorem C146_for_each {α σ : Type} {w : Nat} [Packable α] (u fuel : Nat) (st : σ)
    {f g : FnMut σ (Vector α w) (Vector α w)} (hf : ∀ st v, Same (f st v) (g st v))
    (s : SIMDIter (Slice α w) α w) :
    (simdForEach (debugOf u) fuel st f s).1 = panic ∨
    (simdForEach (debugOf u) fuel st f s).1 = ub ∧ (simdForEach (releaseOf u) fuel st g s).1 = ub ∨
    (simdForEach (debugOf u) fuel st f s).1 = hang ∧ (simdForEach (releaseOf u) fuel st g s).1 = hang ∨
    simdForEach (debugOf u) fuel st f s = simdForEach (releaseOf u) fuel st g s := by
  have h := agree_forEach u hf fuel st s
  unfold obs at h
  generalize simdForEach (debugOf u) fuel st f s = p at h ⊢
  generalize simdForEach (releaseOf u) fuel st g s = q at h ⊢
  obtain ⟨r, t⟩ := p
  obtain ⟨r', t'⟩ := q
  cases r with
  | panic => exact .inl rfl
  | ub => cases r' <;> first | exact .inr (.inl ⟨rfl, rfl⟩) | exact h.elim
  | hang => cases r' <;> first | exact .inr (.inr (.inl ⟨rfl, rfl⟩)) | exact h.elim
  | ok a =>
    cases r' with
    | ok b =>
      obtain ⟨h1, h2⟩ := Prod.mk.inj h
      cases h1
      cases (h2 : t = t')
      exact .inr (.inr (.inr rfl))
    | _ => exact h.elim

/-- The further iterators of a zip whose elements are integers, on a target with blends. -/
inductive BlendRests : (R γ : Type) → BlendRest R γ → Prop
  | nil : BlendRests Unit Unit inferInstance
  | cons {T R γ : Type} {n w : Nat} {sz : SIMDSized T} {it : SIMDIterator T (BitVec n) w}
      {arr : SIMDArray T (BitVec n) w} {zr : BlendRest R γ} : Cursors T (BitVec n) w sz it arr →
    BlendRests R γ zr → BlendRests (T × R) (Vector (BitVec n) w × γ) inferInstance

theorem BlendRests.same {R γ : Type} {zr : BlendRest R γ} (h : BlendRests R γ zr) (u : Nat) :
    ∀ (r : R) (pos k : Nat),
      Same (BlendRest.endAllBlend (debugOf u) r pos k) (BlendRest.endAllBlend (releaseOf u) r pos k) := by
  induction h with
  | nil => exact fun _ _ _ => rfl
  | cons h _ ih =>
    obtain ⟨_, _, _, _⟩ := h.same
    exact fun r pos k => same_bind (same_endUncheckedBlend u r.1 pos k) fun _ =>
      same_bind (ih r.2 pos k) fun _ => rfl

/-- **C146**: `end` of a zip, on a target with blends. -/
theorem C146_zip_blend {T R γ : Type} {n w : Nat} {sz : SIMDSized T} {it : SIMDIterator T (BitVec n) w}
    {arr : SIMDArray T (BitVec n) w} {zr : BlendRest R γ} (h : Cursors T (BitVec n) w sz it arr)
    (hr : BlendRests R γ zr) (u : Nat) (z : Zip T R) :
    Same (Zip.endBlend (debugOf u) z) (Zip.endBlend (releaseOf u) z) := by
  obtain ⟨_, _, _, _⟩ := h.same
  refine same_bind (SameIterable.scalarPos u (Twin.refl z.first)) fun pos => ?_
  refine agree_bind (agree_blanketEndBlend u z.first) fun p q hpq => ?_
  obtain ⟨r, x⟩ := p
  obtain ⟨r', y⟩ := q
  obtain ⟨k1, k2⟩ := hpq
  cases k1
  cases NoClosure.eq k2
  rcases r with _ | ⟨v, k⟩
  · rfl
  · exact same_bind (hr.same u z.rest pos k) fun _ => rfl

end Claims

/-! ### Examples -/

/-- A closure which doubles every lane with Rust's `+`. -/
private def doubled (c : Cfg) : FnMut Unit (Vector (BitVec 8) 2) (Vector (BitVec 8) 2) := fun _ v => do
  let a ← overflowCheck c .u (v[0].toNat + v[0].toNat) (v[0] + v[0])
  let b ← overflowCheck c .u (v[1].toNat + v[1].toNat) (v[1] + v[1])
  ok (#v[a, b], ())

private theorem doubled_same (u : Nat) (st : Unit) (v : Vector (BitVec 8) 2) :
    Same (doubled (debugOf u) st v) (doubled (releaseOf u) st v) :=
  have h : ∀ (x : Int) (r : BitVec 8), Same (overflowCheck (debugOf u) .u x r)
      (overflowCheck (releaseOf u) .u x r) := fun _ _ => agree_ite rfl trivial
  same_bind (h _ _) fun _ => same_bind (h _ _) fun _ => rfl

/-- The same program in both builds, over the elements of a list. -/
private theorem doubled_built (l : List (BitVec 8)) :
    Compiled _ (BitVec 8) 2 inferInstance inferInstance
      (simdMap (simdIter l #v[0#8, 0]) () (doubled (debugOf (2 ^ 64))))
      (simdMap (simdIter l #v[0#8, 0]) () (doubled (releaseOf (2 ^ 64)))) :=
  .map () (.cursor _ (.iter (.slice _ _))) (doubled_same _)

/-- Without overflow, the debug build returns the doubled elements, and therefore the release build
does. -/
example : (do ok (← scalarCollect (releaseOf (2 ^ 64)) 5 (simdMap (simdIter [1#8, 2, 3] #v[0#8, 0]) ()
      (doubled (releaseOf (2 ^ 64))))).2) = ok [some 2#8, some 4, some 6] := by
  have h := (C146_consumers (doubled_built [1#8, 2, 3]) (2 ^ 64) 5).2.2.2.1
  have hd : (do ok (← scalarCollect (debugOf (2 ^ 64)) 5 (simdMap (simdIter [1#8, 2, 3] #v[0#8, 0]) ()
      (doubled (debugOf (2 ^ 64))))).2) = ok [some 2#8, some 4, some 6] := by decide +kernel
  exact same_ok (agree_bind h fun _ _ k => agree_ok k.2) hd

/-- With an overflow, the debug build panics and the release build returns wrapped sums. -/
example : (do ok (← scalarCollect (debugOf (2 ^ 64)) 5 (simdMap (simdIter [1#8, 200, 3] #v[0#8, 0]) ()
      (doubled (debugOf (2 ^ 64))))).2) = panic ∧
    (do ok (← scalarCollect (releaseOf (2 ^ 64)) 5 (simdMap (simdIter [1#8, 200, 3] #v[0#8, 0]) ()
      (doubled (releaseOf (2 ^ 64))))).2) = ok [some 2#8, some 144, some 6] := by
  decide +kernel

/-- A zip whose iterators got out of step: both builds agree on every call, here the debug build panics
where the release build reads out of bounds. -/
example : CompiledZip (Zip (SIMDIter (Slice (BitVec 8) 2) (BitVec 8) 2)
      (SIMDIter (Slice (BitVec 8) 2) (BitVec 8) 2 × Unit)) _ inferInstance
      ⟨simdIter [1, 2, 3, 4] #v[0, 0], simdIter [1] #v[0, 0], ()⟩
      ⟨simdIter [1, 2, 3, 4] #v[0, 0], simdIter [1] #v[0, 0], ()⟩ ∧
    (do ok (← Zip.next (debugOf (2 ^ 64)) (⟨simdIter [1, 2, 3, 4] #v[0, 0], simdIter [1] #v[0, 0], ()⟩ :
      Zip (SIMDIter (Slice (BitVec 8) 2) (BitVec 8) 2)
        (SIMDIter (Slice (BitVec 8) 2) (BitVec 8) 2 × Unit))).1) = panic ∧
    (do ok (← Zip.next (releaseOf (2 ^ 64)) (⟨simdIter [1, 2, 3, 4] #v[0, 0], simdIter [1] #v[0, 0], ()⟩ :
      Zip (SIMDIter (Slice (BitVec 8) 2) (BitVec 8) 2)
        (SIMDIter (Slice (BitVec 8) 2) (BitVec 8) 2 × Unit))).1) = ub :=
  ⟨.zip _ (.cursor _ (.iter (.slice _ _))) (.cons (.iter (.slice _ _)) .nil), by decide +kernel,
    by decide +kernel⟩

end Faster
