import Verif.Props.ZipTrace
import Verif.Props.AdapterTrace
import Verif.StrideZip
/-
C133: `default`. It is the vector given when the iterator was made, whatever has been called
since, and `end` fills the lanes it reports as empty with the lanes of this vector.
-/
namespace Faster
open Res SIMDSized SIMDIterable SIMDIterator

/-! ### No call changes the default -/

/-- The three calls which give a new iterator keep `default`. -/
class FixedDefault (I : Type) {α : outParam Type} {w : outParam Nat} [SIMDSized I]
    [SIMDIterator I α w] : Prop where
  next_dflt : ∀ (c : Cfg) (it : I) (r : Option (Vector α w)) (it' : I),
    SIMDIterable.next c it = ok (r, it') → dflt it' = dflt it
  advance_dflt : ∀ (c : Cfg) (it : I) (k : Nat) (it' : I),
    SIMDIterable.advance c it k = ok it' → dflt it' = dflt it
  end_dflt : ∀ (c : Cfg) (it : I) (r : Option (Vector α w × Nat)) (it' : I),
    SIMDIterator.end_ c it = ok (r, it') → dflt it' = dflt it

theorem bind_ok {α β : Type} {x : Res α} {f : α → Res β} {y : β} (h : (x >>= f) = ok y) :
    ∃ a, x = ok a ∧ f a = ok y := by
  cases x with
  | ok a => exact ⟨a, rfl, h⟩
  | panic => cases h
  | ub => cases h
  | hang => cases h

theorem finalize_dflt {I α : Type} {w : Nat} [SIMDSized I] [SIMDIterable I α w]
    (hadv : ∀ (c : Cfg) (it : I) (k : Nat) (it' : I),
      SIMDIterable.advance c it k = ok it' → dflt it' = dflt it)
    (c : Cfg) (it it' : I) (h : finalize c it = ok it') : dflt it' = dflt it := by
  unfold finalize at h
  obtain ⟨n, -, h⟩ := bind_ok h
  obtain ⟨p, -, h⟩ := bind_ok h
  obtain ⟨e, -, h⟩ := bind_ok h
  exact hadv c it e it' h

theorem blanketEnd_dflt {T α : Type} {w : Nat} [SIMDSized T] [SIMDIterable T α w]
    [SIMDArray T α w]
    (hadv : ∀ (c : Cfg) (it : T) (k : Nat) (it' : T),
      SIMDIterable.advance c it k = ok it' → dflt it' = dflt it)
    (c : Cfg) (t t' : T) (r : Option (Vector α w × Nat)) (h : blanketEnd c t = ok (r, t')) :
    dflt t' = dflt t := by
  unfold blanketEnd at h
  obtain ⟨p, -, h⟩ := bind_ok h
  obtain ⟨n, -, h⟩ := bind_ok h
  split at h
  · obtain ⟨x, -, h⟩ := bind_ok h
    obtain ⟨e, -, h⟩ := bind_ok h
    obtain ⟨v, -, h⟩ := bind_ok h
    obtain ⟨t2, h2, h⟩ := bind_ok h
    simp only [ok.injEq, Prod.mk.injEq] at h
    rw [← h.2]
    exact finalize_dflt hadv c t t2 h2
  · simp only [ok.injEq, Prod.mk.injEq] at h
    rw [h.2]

section
variable {A α : Type} {w : Nat} [SIMDSized A] [SIMDArray A α w]

theorem iter_advance_dflt (c : Cfg) (it : SIMDIter A α w) (k : Nat) (it' : SIMDIter A α w)
    (h : SIMDIterable.advance c it k = ok it') : dflt it' = dflt it := by
  simp only [SIMDIterable.advance, SIMDIter.advance] at h
  obtain ⟨p, -, h⟩ := bind_ok h
  rw [← ok.inj h]
  rfl

/-- Iterators over any array. -/
instance : FixedDefault (SIMDIter A α w) where
  next_dflt c it r it' h := by
    simp only [SIMDIterable.next, SIMDIter.next] at h
    obtain ⟨e, -, h⟩ := bind_ok h
    obtain ⟨n, -, h⟩ := bind_ok h
    split at h
    · obtain ⟨v, -, h⟩ := bind_ok h
      obtain ⟨it2, h2, h⟩ := bind_ok h
      simp only [ok.injEq, Prod.mk.injEq] at h
      rw [← h.2]
      exact iter_advance_dflt c it w it2 h2
    · simp only [ok.injEq, Prod.mk.injEq] at h
      rw [h.2]
  advance_dflt := iter_advance_dflt
  end_dflt c it r it' h := blanketEnd_dflt iter_advance_dflt c it it' r h

theorem stride_advance_dflt [Packable α] (c : Cfg) (it : PackedStride A α w) (k : Nat)
    (it' : PackedStride A α w) (h : SIMDIterable.advance c it k = ok it') : dflt it' = dflt it := by
  simp only [SIMDIterable.advance, PackedStride.advance] at h
  obtain ⟨d, -, h⟩ := bind_ok h
  obtain ⟨p, -, h⟩ := bind_ok h
  rw [← ok.inj h]
  rfl

/-- Strided iterators over any array. -/
instance [Packable α] : FixedDefault (PackedStride A α w) where
  next_dflt c it r it' h := by
    simp only [SIMDIterable.next, PackedStride.next] at h
    obtain ⟨m, -, h⟩ := bind_ok h
    obtain ⟨e, -, h⟩ := bind_ok h
    obtain ⟨n, -, h⟩ := bind_ok h
    split at h
    · obtain ⟨v, -, h⟩ := bind_ok h
      obtain ⟨it2, h2, h⟩ := bind_ok h
      simp only [ok.injEq, Prod.mk.injEq] at h
      rw [← h.2]
      exact stride_advance_dflt c it w it2 h2
    · simp only [ok.injEq, Prod.mk.injEq] at h
      rw [h.2]
  advance_dflt := stride_advance_dflt
  end_dflt c it r it' h := blanketEnd_dflt stride_advance_dflt c it it' r h

end

/-- Maps: their default does not depend on the iterator. -/
instance {I σ α β : Type} {w w' : Nat} [SIMDSized I] [SIMDIterator I α w] [Packable α] [Packable β] :
    FixedDefault (SIMDMap I σ α w β w') where
  next_dflt _ _ _ _ _ := rfl
  advance_dflt _ _ _ _ _ := rfl
  end_dflt _ _ _ _ _ := rfl

instance {Z σ γ β : Type} {w' : Nat} [SIMDZippedIterator Z γ] [Packable β] :
    FixedDefault (SIMDZipMap Z σ γ β w') where
  next_dflt _ _ _ _ _ := rfl
  advance_dflt _ _ _ _ _ := rfl
  end_dflt _ _ _ _ _ := rfl

/-- **C133**: no sequence of safe calls changes the default of an iterator. -/
theorem C133_fixed {I α : Type} {w : Nat} [SIMDSized I] [SIMDIterator I α w] [SIMDArray I α w]
    [hI : FixedDefault I] (c : Cfg) : ∀ (ops : List IterOp) (it it' : I) (os : List (IterOut α w)),
    runOps c it ops = ok (os, it') → dflt it' = dflt it := by
  have step : ∀ (op : IterOp) (it it' : I) (o : IterOut α w), op.step c it = ok (o, it') →
      dflt it' = dflt it := by
    intro op it it' o h
    cases op with
    | next =>
      obtain ⟨⟨r, it2⟩, h2, h⟩ := bind_ok h
      simp only [ok.injEq, Prod.mk.injEq] at h
      rw [← h.2]
      exact hI.next_dflt c it r it2 h2
    | end_ =>
      obtain ⟨⟨r, it2⟩, h2, h⟩ := bind_ok h
      simp only [ok.injEq, Prod.mk.injEq] at h
      rw [← h.2]
      exact hI.end_dflt c it r it2 h2
    | scalar =>
      obtain ⟨⟨r, u⟩, h2, h⟩ := bind_ok h
      simp only [ok.injEq, Prod.mk.injEq] at h
      rw [← h.2]
      unfold Unpacked.next at h2
      obtain ⟨p, -, h2⟩ := bind_ok h2
      obtain ⟨n, -, h2⟩ := bind_ok h2
      split at h2
      · obtain ⟨q, -, h2⟩ := bind_ok h2
        obtain ⟨x, -, h2⟩ := bind_ok h2
        obtain ⟨it2, h3, h2⟩ := bind_ok h2
        simp only [ok.injEq, Prod.mk.injEq] at h2
        rw [← h2.2]
        exact hI.advance_dflt c it 1 it2 h3
      · simp only [ok.injEq, Prod.mk.injEq] at h2
        rw [← h2.2]
        rfl
    | advance k =>
      obtain ⟨it2, h2, h⟩ := bind_ok h
      simp only [ok.injEq, Prod.mk.injEq] at h
      rw [← h.2]
      exact hI.advance_dflt c it k it2 h2
    | finalize =>
      obtain ⟨it2, h2, h⟩ := bind_ok h
      simp only [ok.injEq, Prod.mk.injEq] at h
      rw [← h.2]
      exact finalize_dflt hI.advance_dflt c it it2 h2
    | len => obtain ⟨x, -, h⟩ := bind_ok h; simp only [ok.injEq, Prod.mk.injEq] at h; rw [h.2]
    | scalarPos => obtain ⟨x, -, h⟩ := bind_ok h; simp only [ok.injEq, Prod.mk.injEq] at h; rw [h.2]
    | scalarLen => obtain ⟨x, -, h⟩ := bind_ok h; simp only [ok.injEq, Prod.mk.injEq] at h; rw [h.2]
    | vectorLen => obtain ⟨x, -, h⟩ := bind_ok h; simp only [ok.injEq, Prod.mk.injEq] at h; rw [h.2]
    | vectorPos => obtain ⟨x, -, h⟩ := bind_ok h; simp only [ok.injEq, Prod.mk.injEq] at h; rw [h.2]
    | load n => obtain ⟨x, -, h⟩ := bind_ok h; simp only [ok.injEq, Prod.mk.injEq] at h; rw [h.2]
    | loadScalar n =>
      obtain ⟨x, -, h⟩ := bind_ok h; simp only [ok.injEq, Prod.mk.injEq] at h; rw [h.2]
  intro ops
  induction ops with
  | nil =>
    intro it it' os h
    simp only [runOps, ok.injEq, Prod.mk.injEq] at h
    rw [h.2]
  | cons op ops ih =>
    intro it it' os h
    obtain ⟨⟨o, it1⟩, h1, h⟩ := bind_ok h
    obtain ⟨⟨os1, it2⟩, h2, h⟩ := bind_ok h
    simp only [ok.injEq, Prod.mk.injEq] at h
    rw [← h.2, ih it1 it2 os1 h2, step op it it1 o h1]

/-- **C133**, zips of any number of iterators: no sequence of safe calls changes the default. -/
theorem C133_zip_fixed {I R α γ : Type} {w : Nat} [SIMDSized I] [SIMDIterator I α w] [Packable α]
    [ZipRest R γ] [hI : FixedDefault I] (c : Cfg) :
    ∀ (ops : List ZipOp) (z z' : Zip I R) (os : List (ZipOut (Vector α w × γ))),
    runZip c z ops = ok (os, z') → SIMDZippedIterator.dflt z' = SIMDZippedIterator.dflt z := by
  have adv : ∀ (z z' : Zip I R) (k : Nat), SIMDZippedIterator.advance c z k = ok z' →
      SIMDZippedIterator.dflt z' = SIMDZippedIterator.dflt z := by
    intro z z' k h
    obtain ⟨it2, h2, h⟩ := bind_ok h
    rw [← ok.inj h]
    simp only [SIMDZippedIterator.dflt, hI.advance_dflt c z.first k it2 h2]
  have step : ∀ (op : ZipOp) (z z' : Zip I R) (o : ZipOut (Vector α w × γ)),
      op.step c z = ok (o, z') → SIMDZippedIterator.dflt z' = SIMDZippedIterator.dflt z := by
    intro op z z' o h
    cases op with
    | next =>
      obtain ⟨⟨r, z2⟩, h2, h⟩ := bind_ok h
      simp only [ok.injEq, Prod.mk.injEq] at h
      rw [← h.2]
      simp only [SIMDZippedIterator.next, Zip.next] at h2
      obtain ⟨p, -, h2⟩ := bind_ok h2
      obtain ⟨⟨v, it2⟩, h3, h2⟩ := bind_ok h2
      have e := hI.next_dflt c z.first v it2 h3
      cases v with
      | some v =>
        obtain ⟨vs, -, h2⟩ := bind_ok h2
        simp only [ok.injEq, Prod.mk.injEq] at h2
        rw [← h2.2]
        simp only [SIMDZippedIterator.dflt, e]
      | none =>
        simp only [ok.injEq, Prod.mk.injEq] at h2
        rw [← h2.2]
        simp only [SIMDZippedIterator.dflt, e]
    | end_ =>
      obtain ⟨⟨r, z2⟩, h2, h⟩ := bind_ok h
      simp only [ok.injEq, Prod.mk.injEq] at h
      rw [← h.2]
      simp only [SIMDZippedIterator.end_, Zip.end_] at h2
      obtain ⟨p, -, h2⟩ := bind_ok h2
      obtain ⟨⟨v, it2⟩, h3, h2⟩ := bind_ok h2
      have e := hI.end_dflt c z.first v it2 h3
      cases v with
      | some v =>
        obtain ⟨vs, -, h2⟩ := bind_ok h2
        simp only [ok.injEq, Prod.mk.injEq] at h2
        rw [← h2.2]
        simp only [SIMDZippedIterator.dflt, e]
      | none =>
        simp only [ok.injEq, Prod.mk.injEq] at h2
        rw [← h2.2]
        simp only [SIMDZippedIterator.dflt, e]
    | advance k =>
      obtain ⟨z2, h2, h⟩ := bind_ok h
      simp only [ok.injEq, Prod.mk.injEq] at h
      rw [← h.2]
      exact adv z z2 k h2
    | finalize =>
      obtain ⟨z2, h2, h⟩ := bind_ok h
      simp only [ok.injEq, Prod.mk.injEq] at h
      rw [← h.2]
      unfold zfinalize at h2
      obtain ⟨n, -, h2⟩ := bind_ok h2
      obtain ⟨p, -, h2⟩ := bind_ok h2
      obtain ⟨e, -, h2⟩ := bind_ok h2
      exact adv z z2 e h2
    | len => obtain ⟨x, -, h⟩ := bind_ok h; simp only [ok.injEq, Prod.mk.injEq] at h; rw [h.2]
    | scalarPos => obtain ⟨x, -, h⟩ := bind_ok h; simp only [ok.injEq, Prod.mk.injEq] at h; rw [h.2]
    | scalarLen => obtain ⟨x, -, h⟩ := bind_ok h; simp only [ok.injEq, Prod.mk.injEq] at h; rw [h.2]
    | vectorLen => obtain ⟨x, -, h⟩ := bind_ok h; simp only [ok.injEq, Prod.mk.injEq] at h; rw [h.2]
    | vectorPos => obtain ⟨x, -, h⟩ := bind_ok h; simp only [ok.injEq, Prod.mk.injEq] at h; rw [h.2]
  intro ops
  induction ops with
  | nil =>
    intro z z' os h
    simp only [runZip, ok.injEq, Prod.mk.injEq] at h
    rw [h.2]
  | cons op ops ih =>
    intro z z' os h
    obtain ⟨⟨o, z1⟩, h1, h⟩ := bind_ok h
    obtain ⟨⟨os1, z2⟩, h2, h⟩ := bind_ok h
    simp only [ok.injEq, Prod.mk.injEq] at h
    rw [← h.2, ih z1 z2 os1 h2, step op z z1 o h1]

/-! ### `end` fills the empty lanes with the default's -/

/-- The first `n` lanes are the same. -/
def SameLanes {α : Type} {w : Nat} (n : Nat) (u v : Vector α w) : Prop :=
  ∀ i (h : i < w), i < n → u[i] = v[i]

section
variable {T α : Type} {w : Nat} [SIMDSized T] [SIMDIterable T α w] [SIMDArray T α w]

omit [SIMDIterable T α w] in
theorem elementLoop_keeps (c : Cfg) (t : T) (e : Nat) : ∀ (n i : Nat) (u v : Vector α w),
    i + n + e < c.usize → elementLoop c t e n i u = ok v → SameLanes e v u := by
  intro n
  induction n with
  | zero =>
    intro i u v _ h
    rw [← ok.inj h]
    intro j _ _
    rfl
  | succ n ih =>
    intro i u v hu h
    simp only [elementLoop] at h
    rw [uadd_ok (by omega)] at h
    simp only [ok_bind] at h
    obtain ⟨x, -, h⟩ := bind_ok h
    obtain ⟨u2, h2, h⟩ := bind_ok h
    have h3 := ih (i + 1) u2 v (by omega) h
    intro j hj hje
    rw [h3 j hj hje]
    by_cases hw : i + e < w
    · rw [replaceUnchecked_ok hw] at h2
      rw [← ok.inj h2, Vector.getElem_set_ne _ _ (by omega)]
    · rw [replaceUnchecked_bad hw] at h2
      split at h2 <;> cases h2

theorem endVec_keeps (c : Cfg) (t : T) (len pos e : Nat) (v : Vector α w)
    (hu : len + e < c.usize) (hpos : pos ≤ len) (h : endVec c t len pos e = ok v) :
    SameLanes e v (dflt t) := by
  unfold endVec at h
  split at h
  · obtain ⟨o, -, h⟩ := bind_ok h
    obtain ⟨r, -, h⟩ := bind_ok h
    by_cases he : e < w
    · rw [mergePartitioned_ok c _ _ e he] at h
      rw [← ok.inj h]
      intro i hi hie
      simp [hie]
    · simp [Packed.mergePartitioned, he, assert] at h
  · exact elementLoop_keeps c t e (len - pos) pos (dflt t) v (by omega) h

/-- **C133**: in the vector which `end` returns, the lanes reported as empty have the values of
`default`: every iterator over every array, strided or not, at every position. -/
theorem C133_end (c : Cfg) (t t' : T) (v : Vector α w) (n len : Nat)
    (hlen : scalarLen c t = ok len) (hu : len + w < c.usize)
    (h : blanketEnd c t = ok (some (v, n), t')) : SameLanes n v (dflt t) := by
  unfold blanketEnd at h
  obtain ⟨p, hp, h⟩ := bind_ok h
  rw [hlen] at h
  simp only [ok_bind] at h
  split at h
  · rename_i hlt
    rw [usub_ok (by omega)] at h
    simp only [ok_bind] at h
    obtain ⟨e, he, h⟩ := bind_ok h
    obtain ⟨u, h2, h⟩ := bind_ok h
    obtain ⟨t2, -, h⟩ := bind_ok h
    simp only [ok.injEq, Prod.mk.injEq, Option.some.injEq] at h
    obtain ⟨⟨rfl, rfl⟩, -⟩ := h
    by_cases hw : len - p ≤ w
    · rw [usub_ok hw] at he
      exact endVec_keeps c t len p e u (by rw [← ok.inj he]; omega) (by omega) h2
    · -- more than a vector left: no vector is returned
      exfalso
      unfold usub at he
      rw [if_neg hw] at he
      split at he
      · cases he
      · have hee : w ≤ e := by
          rw [← ok.inj he, Nat.mod_eq_of_lt (by omega)]
          omega
        unfold endVec at h2
        rw [if_pos (by omega)] at h2
        obtain ⟨o, -, h2⟩ := bind_ok h2
        obtain ⟨r, -, h2⟩ := bind_ok h2
        simp [Packed.mergePartitioned, show ¬ e < w by omega, assert] at h2
  · simp only [ok.injEq, Prod.mk.injEq, reduceCtorEq, false_and] at h

theorem endUnchecked_keeps (c : Cfg) (t : T) (v : Vector α w) (pos n len : Nat)
    (hlen : scalarLen c t = ok len) (hu : len + n < c.usize)
    (h : endUnchecked c t pos n = ok v) : SameLanes n v (dflt t) := by
  unfold endUnchecked at h
  rw [hlen] at h
  simp only [ok_bind] at h
  obtain ⟨-, -, h⟩ := bind_ok h
  have key : ∃ pos', endVec c t len pos' n = ok v ∧ pos' ≤ len ∨ endVec c t len pos n = ok v := by
    split at h
    · obtain ⟨a, -, h⟩ := bind_ok h
      obtain ⟨b, -, h⟩ := bind_ok h
      obtain ⟨d, -, h⟩ := bind_ok h
      exact ⟨pos, .inr h⟩
    · exact ⟨pos, .inr h⟩
  obtain ⟨pos', ⟨h1, h2⟩ | h1⟩ := key
  · exact endVec_keeps c t len pos' n v hu h2 h1
  · rcases Nat.le_total pos len with h2 | h2
    · exact endVec_keeps c t len pos n v hu h2 h1
    · unfold endVec at h1
      split at h1
      · rename_i hw
        refine endVec_keeps c t len len n v hu (Nat.le_refl _) ?_
        unfold endVec
        rw [if_pos hw]
        exact h1
      · rw [Nat.sub_eq_zero_of_le h2] at h1
        rw [← ok.inj h1]
        intro i _ _
        rfl

end

/-- The first `n` lanes of all vectors of a tuple are those of another tuple, and the lengths
of the iterators are such that the indices do not overflow. -/
class LaneTuple (R : Type) (γ : outParam Type) [ZipRest R γ] where
  same : Nat → γ → γ → Prop
  small : Cfg → Nat → R → Prop
  end_same : ∀ (c : Cfg) (r : R) (pos n : Nat) (vs : γ), small c n r →
    ZipRest.endAll c r pos n = ok vs → same n vs (ZipRest.defaultAll r)

instance : LaneTuple Unit Unit where
  same _ _ _ := True
  small _ _ _ := True
  end_same _ _ _ _ _ _ _ := trivial

instance {T R α γ : Type} {w : Nat} [SIMDSized T] [SIMDIterable T α w] [SIMDArray T α w]
    [ZipRest R γ] [LaneTuple R γ] : LaneTuple (T × R) (Vector α w × γ) where
  same n u v := SameLanes n u.1 v.1 ∧ LaneTuple.same R n u.2 v.2
  small c n r := (∃ len, scalarLen c r.1 = ok len ∧ len + n < c.usize) ∧ LaneTuple.small c n r.2
  end_same c r pos n vs hs h := by
    obtain ⟨⟨len, h1, h2⟩, h3⟩ := hs
    obtain ⟨v, h4, h⟩ := bind_ok h
    obtain ⟨us, h5, h⟩ := bind_ok h
    rw [← ok.inj h]
    exact ⟨endUnchecked_keeps c r.1 v pos n len h1 h2 h4, LaneTuple.end_same c r.2 pos n us h3 h5⟩

/-- Zips whose first iterator has the common `end`. -/
theorem zip_end_same {T R α γ : Type} {w : Nat} [SIMDSized T] [SIMDIterable T α w]
    [SIMDArray T α w] [Packable α] [ZipRest R γ] [LaneTuple R γ] (c : Cfg)
    (hT : SIMDIterator T α w) (hiter : hT.toSIMDIterable = ‹SIMDIterable T α w›)
    (hend : ∀ t : T, hT.end_ c t = blanketEnd c t)
    (z z' : Zip T R) (vs : Vector α w × γ) (n len : Nat) (hlen : scalarLen c z.first = ok len)
    (hu : len + w < c.usize) (hs : LaneTuple.small c n z.rest)
    (h : SIMDZippedIterator.end_ c z = ok (some (vs, n), z')) :
    SameLanes n vs.1 (SIMDZippedIterator.dflt z).1 ∧
      LaneTuple.same R n vs.2 (SIMDZippedIterator.dflt z).2 := by
  subst hiter
  simp only [SIMDZippedIterator.end_, Zip.end_] at h
  obtain ⟨p, -, h⟩ := bind_ok h
  obtain ⟨⟨r, it2⟩, h3, h⟩ := bind_ok h
  rw [hend] at h3
  cases r with
  | none => simp only [ok.injEq, Prod.mk.injEq, reduceCtorEq, false_and] at h
  | some r =>
    obtain ⟨v, m⟩ := r
    obtain ⟨us, h4, h⟩ := bind_ok h
    simp only [ok.injEq, Prod.mk.injEq, Option.some.injEq] at h
    obtain ⟨⟨rfl, rfl⟩, -⟩ := h
    exact ⟨C133_end c z.first it2 v m len hlen hu h3,
      LaneTuple.end_same c z.rest p m us hs h4⟩

/-- **C133**, zips of any number of iterators over any arrays: the empty lanes of the tuple
which `end` returns are those of `default`. -/
theorem C133_zip_end {A R α γ : Type} {w : Nat} [SIMDSized A] [SIMDArray A α w] [Packable α]
    [ZipRest R γ] [LaneTuple R γ] (c : Cfg) (z z' : Zip (SIMDIter A α w) R) (vs : Vector α w × γ)
    (n len : Nat) (hlen : scalarLen c z.first = ok len)
    (hu : len + w < c.usize) (hs : LaneTuple.small c n z.rest)
    (h : SIMDZippedIterator.end_ c z = ok (some (vs, n), z')) :
    SameLanes n vs.1 (SIMDZippedIterator.dflt z).1 ∧
      LaneTuple.same R n vs.2 (SIMDZippedIterator.dflt z).2 :=
  zip_end_same c instIteratorSIMDIter rfl (fun _ => rfl) z z' vs n len hlen hu hs h

/-- **C133**, zips which begin with a strided iterator. -/
theorem C133_zip_end_stride {A R α γ : Type} {w : Nat} [SIMDSized A] [SIMDArray A α w] [Packable α]
    [ZipRest R γ] [LaneTuple R γ] (c : Cfg) (z z' : Zip (PackedStride A α w) R)
    (vs : Vector α w × γ) (n len : Nat) (hlen : scalarLen c z.first = ok len)
    (hu : len + w < c.usize) (hs : LaneTuple.small c n z.rest)
    (h : SIMDZippedIterator.end_ c z = ok (some (vs, n), z')) :
    SameLanes n vs.1 (SIMDZippedIterator.dflt z).1 ∧
      LaneTuple.same R n vs.2 (SIMDZippedIterator.dflt z).2 :=
  zip_end_same c instIteratorPackedStride rfl (fun _ => rfl) z z' vs n len hlen hu hs h

/-! ### What the default is -/

/-- **C133**: the default is the vector given to `simd_iter`, to `stride_into` (one for each
of the strided iterators), and the tuple of these for a zip. -/
theorem C133_given {α : Type} {w : Nat} [Packable α] (c : Cfg) (data : List α) (d : Vector α w) :
    dflt (simdIter data d) = d ∧
    (∀ {A : Type} [SIMDSized A] [SIMDArray A α w] (a : A) (ds : List (Vector α w))
      (its : List (PackedStride A α w)), strideInto a ds.length ds = ok its → its.map dflt = ds) ∧
    (∀ {A : Type} [SIMDSized A] [SIMDArray A α w] (a : A) (d0 d1 d2 d3 d4 d5 d6 d7 d8 : Vector α w),
      (let s := strideTwo a (d0, d1); (dflt s.1, dflt s.2)) = (d0, d1) ∧
      (let s := strideThree a (d0, d1, d2); (dflt s.1, dflt s.2.1, dflt s.2.2)) = (d0, d1, d2) ∧
      (let s := strideFour a (d0, d1, d2, d3);
        (dflt s.1, dflt s.2.1, dflt s.2.2.1, dflt s.2.2.2)) = (d0, d1, d2, d3) ∧
      (let s := strideNine a (d0, d1, d2, d3, d4, d5, d6, d7, d8);
        (dflt s.1, dflt s.2.1, dflt s.2.2.1, dflt s.2.2.2.1, dflt s.2.2.2.2.1,
          dflt s.2.2.2.2.2.1, dflt s.2.2.2.2.2.2.1, dflt s.2.2.2.2.2.2.2.1,
          dflt s.2.2.2.2.2.2.2.2)) = (d0, d1, d2, d3, d4, d5, d6, d7, d8)) ∧
    (∀ {I R γ : Type} [SIMDSized I] [SIMDIterator I α w] [ZipRest R γ] (first : I) (rest : R)
      (z : Zip I R), zip c first rest = ok z →
      SIMDZippedIterator.dflt z = (dflt first, ZipRest.defaultAll rest)) ∧
    (∀ {T R γ : Type} [SIMDSized T] [SIMDIterable T α w] [SIMDArray T α w] [ZipRest R γ] (t : T) (r : R),
      ZipRest.defaultAll (t, r) = (dflt t, ZipRest.defaultAll r)) := by
  refine ⟨rfl, ?_, fun _ _ _ _ _ _ _ _ _ _ => ⟨rfl, rfl, rfl, rfl⟩, ?_, fun _ _ => rfl⟩
  · intro A _ _ a ds its h
    unfold strideInto at h
    obtain ⟨-, -, h⟩ := bind_ok h
    have key : ∀ (l : List Nat) (its : List (PackedStride A α w)), (∀ i ∈ l, i < ds.length) →
        (l.mapM fun offset => do
          ok (strideAt a ds.length offset (← getUnchecked ds offset))) = ok its →
        its.map dflt = l.filterMap fun i => ds[i]? := by
      intro l
      induction l with
      | nil =>
        intro its _ h
        rw [List.mapM_nil] at h
        rw [← ok.inj h]
        rfl
      | cons i l ih =>
        intro its hl h
        rw [List.mapM_cons] at h
        obtain ⟨s, h1, h⟩ := bind_ok h
        obtain ⟨ss, h2, h⟩ := bind_ok h
        obtain ⟨x, h3, h1⟩ := bind_ok h1
        have hi := hl i (by simp)
        have e : x = ds[i] := by
          simp only [getUnchecked, List.getElem?_eq_getElem hi] at h3
          exact (ok.inj h3).symm
        rw [show its = s :: ss from (ok.inj h).symm, ← ok.inj h1, List.map_cons, ih ss
          (fun j hj => hl j (by simp [hj])) h2, List.filterMap_cons, List.getElem?_eq_getElem hi, e]
        rfl
    have h2 := key (List.range ds.length) its (fun i hi => List.mem_range.1 hi) h
    rw [h2]
    clear h h2 key
    apply List.ext_getElem?
    intro i
    have : ∀ (l : List (Vector α w)) (n : Nat), n ≤ l.length →
        (List.range n).filterMap (fun i => l[i]?) = l.take n := by
      intro l n
      induction n with
      | zero => intro _; rfl
      | succ n ih =>
        intro hn
        rw [List.range_succ, List.filterMap_append, ih (by omega), List.take_add_one]
        simp [List.getElem?_eq_getElem (show n < l.length by omega)]
    rw [this ds ds.length (Nat.le_refl _), List.take_length]
  · intro I R γ _ _ _ first rest z h
    unfold zip at h
    obtain ⟨n, -, h⟩ := bind_ok h
    obtain ⟨b, -, h⟩ := bind_ok h
    split at h
    · cases h
    · rw [← ok.inj h]
      rfl

/-- **C133 is false for maps and for stride_zip**: their default is the zero vector, whatever the
closure makes of the default of the iterator below. -/
theorem C133_map {I Z σ α β γ : Type} {w w' : Nat} [SIMDSized I] [SIMDIterator I α w] [Packable α]
    [Packable β] [SIMDZippedIterator Z γ] (it : I) (z : Z) (st : σ)
    (f : FnMut σ (Vector α w) (Vector β w')) (g : FnMut σ γ (Vector β w')) (s : StrideZip I α w) :
    dflt (simdMap it st f) = Packed.default ∧ dflt (zsimdMap z st g) = Packed.default ∧
    SIMDZippedIterator.dflt s = (Packed.default, Packed.default) := ⟨rfl, rfl, rfl⟩

/-- **C133 is false**: a map which does nothing, over three elements with the default 7. `end`
fills the first lane with 7, but `default` is 0. -/
theorem C133_false :
    let m := simdMap (simdIter [1#8, 2, 3] #v[7#8, 7, 7, 7]) () (pureFn fun v => v)
    (do let (r, _) ← SIMDIterator.end_ debug64 m; ok r) = ok (some (#v[7, 1, 2, 3], 1)) ∧
    dflt m = #v[0#8, 0, 0, 0] := by
  decide +kernel

/-- Non-vacuity: `end` of a zip of two slices. -/
example : (do
    let (r, z) ← SIMDZippedIterator.end_ debug64
      (⟨simdIter [1#8, 2, 3] #v[7#8, 7, 7, 7],
        (simdIter [4#8, 5, 6] #v[9#8, 9, 9, 9], ())⟩ : Zip _ _)
    ok (r.map fun v => (v.1.1, v.1.2.1, v.2), (SIMDZippedIterator.dflt z).2.1)) =
    ok (some (#v[7, 1, 2, 3], #v[9, 4, 5, 6], 1), #v[9, 9, 9, 9]) := by
  decide +kernel

example : LaneTuple.small debug64 1 (simdIter [4#8, 5, 6] #v[9#8, 9, 9, 9], ()) :=
  ⟨⟨3, rfl, by decide⟩, trivial⟩

end Faster
