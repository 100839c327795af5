import Verif.Props.ZipMany
import Verif.Props.ZipTrace
/-
C56 for zips of any number of iterators: what the positions of the second and further iterators
mean to a zip (nothing), and when the tuples are nevertheless the ones the iterators would have
delivered themselves.
-/
namespace Faster
open Res SIMDSized SIMDIterable SIMDIterator

/-- The second and further iterators of a zip, if all of them are `SIMDIter`s (over collections of
any kind). -/
class Positioned (R : Type) (γ : outParam Type) [ZipRest R γ] where
  /-- The positions of the iterators. -/
  positions : R → List Nat
  /-- Both sides are the same iterators, at any positions. -/
  Same : R → R → Prop
  /-- What the iterators would deliver themselves, each from its own position: nothing as soon as one
  of them is at its end. -/
  own : Cfg → R → Res (Option γ)
  len_eq : ∀ (c : Cfg) (r r' : R) (n : Nat), Same r r' →
    ZipRest.lenDiffers c r n = ZipRest.lenDiffers c r' n
  next_eq : ∀ (c : Cfg) (r r' : R) (p : Nat), Same r r' → ZipRest.nextAll c r p = ZipRest.nextAll c r' p
  end_eq : ∀ (c : Cfg) (r r' : R) (p n : Nat), Same r r' →
    ZipRest.endAll c r p n = ZipRest.endAll c r' p n
  default_eq : ∀ (r r' : R), Same r r' → ZipRest.defaultAll r = ZipRest.defaultAll r'

theorem elementLoop_moved {A β : Type} {w : Nat} [SIMDSized A] [SIMDArray A β w] (c : Cfg) (q q' : Nat)
    (a : A) (d : Vector β w) (e k p : Nat) (v : Vector β w) :
    elementLoop c (⟨q, a, d⟩ : SIMDIter A β w) e k p v =
      elementLoop c (⟨q', a, d⟩ : SIMDIter A β w) e k p v := by
  induction k generalizing p e v with
  | zero => rfl
  | succ k ih =>
    simp only [elementLoop, ih]
    rfl

theorem endUnchecked_moved {A β : Type} {w : Nat} [SIMDSized A] [SIMDArray A β w] (c : Cfg) (q q' : Nat)
    (a : A) (d : Vector β w) (p n : Nat) :
    endUnchecked c (⟨q, a, d⟩ : SIMDIter A β w) p n = endUnchecked c (⟨q', a, d⟩ : SIMDIter A β w) p n := by
  simp only [endUnchecked, endVec]
  simp only [SIMDIterable.dflt]
  simp only [elementLoop_moved c q q']
  rfl

instance instPositionedUnit : Positioned Unit Unit where
  positions _ := []
  Same _ _ := True
  own _ _ := ok (some ())
  len_eq _ _ _ _ _ := rfl
  next_eq _ _ _ _ _ := rfl
  end_eq _ _ _ _ _ _ := rfl
  default_eq _ _ _ := rfl

instance instPositionedCons {A R β γ : Type} {w : Nat} [SIMDSized A] [SIMDArray A β w] [ZipRest R γ]
    [Positioned R γ] : Positioned (SIMDIter A β w × R) (Vector β w × γ) where
  positions r := r.1.position :: Positioned.positions r.2
  Same r r' := r.1.data = r'.1.data ∧ r.1.default = r'.1.default ∧ Positioned.Same r.2 r'.2
  own c r := do
    let (v, _) ← next c r.1
    let vs ← Positioned.own c r.2
    ok (v.bind fun v => vs.map fun vs => (v, vs))
  len_eq c r r' n h := by
    obtain ⟨⟨p, a, d⟩, r⟩ := r
    obtain ⟨⟨p', a', d'⟩, r'⟩ := r'
    obtain ⟨rfl, rfl, h⟩ := h
    have h1 := Positioned.len_eq c r r' n h
    simp only [ZipRest.lenDiffers, h1]
    rfl
  next_eq c r r' p h := by
    obtain ⟨⟨q, a, d⟩, r⟩ := r
    obtain ⟨⟨q', a', d'⟩, r'⟩ := r'
    obtain ⟨rfl, rfl, h⟩ := h
    have h1 := Positioned.next_eq c r r' p h
    simp only [ZipRest.nextAll, h1]
    rfl
  end_eq c r r' p n h := by
    obtain ⟨⟨q, a, d⟩, r⟩ := r
    obtain ⟨⟨q', a', d'⟩, r'⟩ := r'
    obtain ⟨rfl, rfl, h⟩ := h
    have h1 := Positioned.end_eq c r r' p n h
    simp only [ZipRest.endAll, h1, endUnchecked_moved c q q']
  default_eq r r' h := by
    obtain ⟨⟨q, a, d⟩, r⟩ := r
    obtain ⟨⟨q', a', d'⟩, r'⟩ := r'
    obtain ⟨rfl, rfl, h⟩ := h
    simp only [ZipRest.defaultAll, Positioned.default_eq r r' h]
    rfl

section
variable {I R α γ : Type} {w : Nat} [SIMDSized I] [SIMDIterator I α w] [Packable α] [ZipRest R γ]
  [Positioned R γ]

/-- The same zip with other iterators in the second and further places. -/
def Zip.withRest {I R : Type} (z : Zip I R) (r : R) : Zip I R := ⟨z.first, r⟩

omit [Packable α] in
/-- **C56** fails in general: moving the second and further iterators of a zip, of whatever number,
changes nothing. Building the zip succeeds or fails alike. -/
theorem C56_zip_built (c : Cfg) (a : I) (r r' : R) (h : Positioned.Same r r') :
    zip c a r = (zip c a r' >>= fun z => ok (z.withRest r)) := by
  simp only [zip, bind_assoc]
  cases len c a <;> simp only [ok_bind, panic_bind, ub_bind, hang_bind]
  rw [Positioned.len_eq c r r' _ h]
  cases ZipRest.lenDiffers c r' _ <;> simp only [ok_bind, panic_bind, ub_bind, hang_bind]
  split <;> rfl

/-- **C56**: `next` delivers the same tuple, or fails alike. -/
theorem C56_moved_next (c : Cfg) (a : I) (r r' : R) (h : Positioned.Same r r') :
    SIMDZippedIterator.next c (⟨a, r⟩ : Zip I R) =
      (SIMDZippedIterator.next c (⟨a, r'⟩ : Zip I R) >>= fun (v, z) => ok (v, z.withRest r)) := by
  simp only [SIMDZippedIterator.next, Zip.next, bind_assoc]
  cases scalarPos c a <;> simp only [ok_bind, panic_bind, ub_bind, hang_bind]
  cases next c a <;> simp only [ok_bind, panic_bind, ub_bind, hang_bind]
  rename_i p x
  obtain ⟨v, a'⟩ := x
  cases v
  · rfl
  · simp only [Positioned.next_eq c r r' p h]
    cases ZipRest.nextAll c r' p <;> simp only [ok_bind, panic_bind, ub_bind, hang_bind] <;> rfl

/-- **C56**: `end` returns the same tuple, or fails alike. -/
theorem C56_moved_end (c : Cfg) (a : I) (r r' : R) (h : Positioned.Same r r') :
    SIMDZippedIterator.end_ c (⟨a, r⟩ : Zip I R) =
      (SIMDZippedIterator.end_ c (⟨a, r'⟩ : Zip I R) >>= fun (v, z) => ok (v, z.withRest r)) := by
  simp only [SIMDZippedIterator.end_, Zip.end_, bind_assoc]
  cases scalarPos c a <;> simp only [ok_bind, panic_bind, ub_bind, hang_bind]
  cases end_ c a <;> simp only [ok_bind, panic_bind, ub_bind, hang_bind]
  rename_i p x
  obtain ⟨v, a'⟩ := x
  cases v with
  | none => rfl
  | some v =>
    obtain ⟨v, n⟩ := v
    simp only [Positioned.end_eq c r r' p n h]
    cases ZipRest.endAll c r' p n <;> simp only [ok_bind, panic_bind, ub_bind, hang_bind] <;> rfl

/-- **C56**: its length, position and default are those of the first iterator and of the collections. -/
theorem C56_moved_rest (c : Cfg) (a : I) (r r' : R) (h : Positioned.Same r r') :
    SIMDZippedIterator.len c (⟨a, r⟩ : Zip I R) = SIMDZippedIterator.len c (⟨a, r'⟩ : Zip I R) ∧
    SIMDZippedIterator.scalarPos c (⟨a, r⟩ : Zip I R) = SIMDZippedIterator.scalarPos c (⟨a, r'⟩ : Zip I R) ∧
    SIMDZippedIterator.dflt (⟨a, r⟩ : Zip I R) = SIMDZippedIterator.dflt (⟨a, r'⟩ : Zip I R) := by
  refine ⟨rfl, rfl, ?_⟩
  simp only [SIMDZippedIterator.dflt, Positioned.default_eq r r' h]

end

/-! ### When the tuples are right -/

/-- Iterators over slices of the same length as the first one. -/
class SlicesAt (R : Type) (γ : outParam Type) (w : Nat) [ZipRest R γ] [Positioned R γ] where
  /-- The lengths of the slices. -/
  lens : R → List Nat
  /-- The `w` elements of each slice at `p` are those at its iterator's own position. -/
  Agree : R → Nat → Prop
  agree_of_eq : ∀ (r : R) (p : Nat), (∀ q ∈ Positioned.positions r, q = p) → Agree r p
  exact : ∀ (c : Cfg) (r : R) (n p : Nat), (∀ k ∈ lens r, k = n) → n + w < c.usize → p + w ≤ n →
    (∀ q ∈ Positioned.positions r, q + w ≤ n) →
    ∃ v u, ZipRest.nextAll c r p = ok v ∧ Positioned.own c r = ok (some u) ∧ (v = u ↔ Agree r p)

instance instSlicesAtUnit (w : Nat) : SlicesAt Unit Unit w where
  lens _ := []
  Agree _ _ := True
  agree_of_eq _ _ _ := trivial
  exact _ _ _ _ _ _ _ _ := ⟨(), (), rfl, rfl, by simp⟩

instance instSlicesAtCons {β R γ : Type} {w : Nat} [ZipRest R γ] [Positioned R γ] [SlicesAt R γ w] :
    SlicesAt (SIMDIter (Slice β w) β w × R) (Vector β w × γ) w where
  lens r := r.1.data.elems.length :: SlicesAt.lens w r.2
  Agree r p := (∀ i, i < w → r.1.data.elems[p + i]? = r.1.data.elems[r.1.position + i]?) ∧
    SlicesAt.Agree w r.2 p
  agree_of_eq r p h := by
    have h1 : r.1.position = p := h _ List.mem_cons_self
    exact ⟨fun i _ => by rw [h1], SlicesAt.agree_of_eq r.2 p fun q hq => h q (List.mem_cons_of_mem _ hq)⟩
  exact c r n p hl hu hp hq := by
    obtain ⟨⟨q, ⟨ys⟩, dy⟩, r⟩ := r
    simp only [List.mem_cons, forall_eq_or_imp] at hl
    have hq1 : q + w ≤ n := hq _ List.mem_cons_self
    have hn : ys.length = n := hl.1
    obtain ⟨v, u, h1, h2, h3⟩ := SlicesAt.exact c r n p hl.2 hu hp
      fun q hq' => hq q (List.mem_cons_of_mem _ hq')
    have h4 := nextUnchecked_exact c ys q dy p (by omega)
    rw [dif_pos (by omega)] at h4
    have h5 := simdIter_next_some (represents_slice c ys) (p := q) (d := dy) (by omega) (by omega)
    refine ⟨(windowAt ys p w (by omega), v), (windowAt ys q w (by omega), u), ?_, ?_, ?_⟩
    · simp only [ZipRest.nextAll, h4, ok_bind, h1]
    · simp only [Positioned.own, h5, ok_bind, h2]
      rfl
    · rw [Prod.mk.injEq, h3]
      refine and_congr_left fun _ => ?_
      rw [Vector.ext_iff]
      refine forall₂_congr fun i hi => ?_
      simp only [windowAt, Vector.getElem_ofFn]
      rw [List.getElem?_eq_getElem (by omega), List.getElem?_eq_getElem (by omega), Option.some_inj]

section
variable {α R γ : Type} {w : Nat} [Packable α] [ZipRest R γ] [Positioned R γ] [SlicesAt R γ w]

/-- **C56**, exactly, for zips of iterators over any number of slices of one length, each at its own
position with at least a vector to go: the tuple delivered is the one the iterators would deliver
themselves if and only if each slice has the same `w` elements at the first iterator's position as
at its own iterator's. -/
theorem C56_iff (c : Cfg) (xs : List α) (dx : Vector α w) (p : Nat) (r : R)
    (hl : ∀ k ∈ SlicesAt.lens w r, k = xs.length) (hu : xs.length + w < c.usize)
    (hp : p + w ≤ xs.length) (hq : ∀ q ∈ Positioned.positions r, q + w ≤ xs.length) :
    ∃ v u, SIMDZippedIterator.next c (⟨⟨p, ⟨xs⟩, dx⟩, r⟩ : Zip (SIMDIter (Slice α w) α w) R) =
        ok (some (windowAt xs p w hp, v), ⟨⟨p + w, ⟨xs⟩, dx⟩, r⟩) ∧
      Positioned.own c r = ok (some u) ∧ (v = u ↔ SlicesAt.Agree w r p) := by
  obtain ⟨v, u, h1, h2, h3⟩ := SlicesAt.exact c r xs.length p hl hu hp hq
  have hn := simdIter_next_some (represents_slice c xs) (d := dx) hp (by omega)
  refine ⟨v, u, ?_, h2, h3⟩
  simp only [SIMDZippedIterator.next, Zip.next, SIMDIterable.scalarPos, ok_bind, hn, h1]

/-- **C56**, the part which holds: if all iterators are at the same position, the tuple holds what each
of them would deliver itself. Missing: other positions, where the property is false. -/
theorem C56_partial (c : Cfg) (xs : List α) (dx : Vector α w) (p : Nat) (r : R)
    (hl : ∀ k ∈ SlicesAt.lens w r, k = xs.length) (hu : xs.length + w < c.usize)
    (hp : p + w ≤ xs.length) (hq : ∀ q ∈ Positioned.positions r, q = p) :
    ∃ u, SIMDZippedIterator.next c (⟨⟨p, ⟨xs⟩, dx⟩, r⟩ : Zip (SIMDIter (Slice α w) α w) R) =
        ok (some (windowAt xs p w hp, u), ⟨⟨p + w, ⟨xs⟩, dx⟩, r⟩) ∧
      Positioned.own c r = ok (some u) := by
  obtain ⟨v, u, h1, h2, h3⟩ := C56_iff c xs dx p r hl hu hp fun q h => by rw [hq q h]; exact hp
  obtain rfl := h3.mpr (SlicesAt.agree_of_eq r p hq)
  exact ⟨v, h1, h2⟩

end

/-- Three iterators: the third one has moved on, the tuple is wrong in this place only. -/
example :
    let r : SIMDIter (Slice (BitVec 8) 2) (BitVec 8) 2 × SIMDIter (Slice (BitVec 8) 2) (BitVec 8) 2 × Unit :=
      (⟨2, ⟨[5, 6, 7, 8]⟩, #v[0, 0]⟩, ⟨0, ⟨[1, 1, 2, 2]⟩, #v[0, 0]⟩, ())
    (SIMDZippedIterator.next debug64
        (⟨⟨2, ⟨[1, 2, 3, 4]⟩, #v[0, 0]⟩, r⟩ : Zip (SIMDIter (Slice (BitVec 8) 2) (BitVec 8) 2) _) >>=
      fun (v, _) => ok v) = ok (some (#v[3, 4], #v[7, 8], #v[2, 2], ())) ∧
    Positioned.own debug64 r = ok (some (#v[7, 8], #v[1, 1], ())) := by decide +kernel

/-- **C89 is false** also without `finalize`: in a release build, the overflow of `advance` moves a
zip back. -/
theorem C89_overflow :
    (do
      let (os, _) ← runZip release64 (zip2At [1#8, 2, 3, 4] [5#8, 6, 7, 8] #v[0, 0] #v[0, 0] 0 0)
        [.next, .advance (2 ^ 64 - 2), .next]
      ok (os.flatMap ZipOut.delivered)) = ok [(1, 5), (2, 6), (1, 5), (2, 6)] := by
  decide +kernel

end Faster
