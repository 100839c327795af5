import Verif.Props.AnyIter
import Verif.Props.Views
/-
C135 continued: `scalar_collect_all` and `Unrolled` on any implementation of the
iterator traits, and implementations whose `next` or `end` panics.
-/
namespace Faster
open Res SIMDSized SIMDIterable SIMDIterator

section C135
variable {I α κ : Type} {w : Nat} [SIMDSized I] [SIMDIterator I α w]

/-- `scalar_fill_all` into cells, of any iterator. -/
theorem fillAllCells_any (c : Cfg) (inj : α → κ) (fuel : Nat) (it it1 it' : I)
    (vs : List (Vector α w)) (t : Option (Vector α w × Nat)) (buf : List κ)
    (hr : Runs c it vs (ok it1)) (he : end_ c it1 = ok (t, it')) (hf : vs.length < fuel)
    (hu : buf.length + w < c.usize) :
    scalarFillAllCells c inj fuel it buf =
      if buf.length < (vs ++ (t.map Prod.fst).toList).length * w then badAccess c
      else ok (it', splice buf 0 ((lanes (vs ++ (t.map Prod.fst).toList)).map inj)) := by
  have ll := lanes_length vs
  simp only [scalarFillAllCells]
  by_cases h1 : buf.length < vs.length * w
  · rw [fillAllLoop_runs_short inj hr fuel buf 0 hf (by omega) (by omega) hu, if_pos (by
      refine Nat.lt_of_lt_of_le h1 (Nat.mul_le_mul_right w ?_)
      rw [List.length_append]; omega)]
    simp
  · rw [fillAllLoop_runs inj hr fuel buf 0 hf (by omega) (by omega)]
    simp only [ok_bind, he, Nat.zero_add]
    cases t with
    | none => simp [h1]
    | some q =>
      obtain ⟨p, n⟩ := q
      have hl : (splice buf 0 ((lanes vs).map inj)).length = buf.length :=
        splice_length _ _ _ (by simp [ll]; omega)
      simp only [Option.map_some, Option.toList_some, List.length_append, List.length_cons,
        List.length_nil, Nat.zero_add, Nat.succ_mul]
      by_cases h2 : buf.length < vs.length * w + w
      · rw [if_pos h2, storeUnchecked_bad (by omega) (by omega)]
        simp
      · rw [if_neg h2, storeUnchecked_ok (by omega), ok_bind]
        have e2 := splice_splice buf 0 ((lanes vs).map inj) (p.map inj).toList (by simp [ll]; omega)
        rw [Nat.zero_add, List.length_map, ll] at e2
        rw [e2, lanes_append]
        simp [lanes, Vector.toList_map]

/-- **C135**, `scalar_collect_all` of any iterator: `next` returns the vectors
`vs` and then `None`, then `end` returns `t`. `L` is what `len` says before: the
length of the result, in elements. -/
theorem C135_collect_all (c : Cfg) (fuel : Nat) (it it1 it' : I) (vs : List (Vector α w))
    (t : Option (Vector α w × Nat)) (L : Nat) (hr : Runs c it vs (ok it1))
    (he : end_ c it1 = ok (t, it')) (hL : SIMDIterable.len c it = ok L) (hf : vs.length < fuel)
    (hw : 0 < w) (hu : (L + 2) * w < c.usize) :
    scalarCollectAll c fuel it =
      if L < (vs ++ (t.map Prod.fst).toList).length * w then badAccess c
      else ok (it', (lanes (vs ++ (t.map Prod.fst).toList)).map some ++
        List.replicate (L - (vs ++ (t.map Prod.fst).toList).length * w) none) := by
  have e1 : (L + 2) * w = (L + 1) * w + w := Nat.succ_mul (L + 1) w
  have h2 : L + 1 ≤ (L + 1) * w := Nat.le_mul_of_pos_right _ hw
  have ll := lanes_length (vs ++ (t.map Prod.fst).toList)
  simp only [scalarCollectAll, hL, ok_bind]
  rw [uadd_ok (by omega)]
  simp only [ok_bind]
  rw [umul_ok (by omega)]
  simp only [ok_bind]
  have e0 : (RVec.withCapacity ((L + 1) * w) : RVec α).setLen L =
      ok ⟨List.replicate ((L + 1) * w) none, L⟩ := by
    rw [RVec.setLen, if_pos]
    · rfl
    · simp [RVec.withCapacity]; omega
  rw [e0]
  simp only [ok_bind]
  have e2 : (⟨List.replicate ((L + 1) * w) none, L⟩ : RVec α).slice = List.replicate L none := by
    simp only [RVec.slice, List.take_replicate]
    congr 1; omega
  rw [e2, fillAllCells_any c some fuel it it1 it' vs t _ hr he hf (by simp; omega),
    List.length_replicate]
  split
  · simp
  · rename_i h3
    rw [ok_bind, splice_zero]
    simp only [RVec.putSlice, RVec.slice, List.length_map, ll, List.drop_replicate]
    rw [List.take_left']
    rw [List.length_append, List.length_map, List.length_replicate, ll]
    omega

/-- `scalar_collect_all` is safe only for iterators without vectors and for those whose `len` is the
number of elements, or more. -/
theorem C135_collect_all_ub (c : Cfg) (fuel : Nat) (it it1 it' : I) (vs : List (Vector α w))
    (t : Option (Vector α w × Nat)) (L : Nat) (hr : Runs c it vs (ok it1))
    (he : end_ c it1 = ok (t, it')) (hL : SIMDIterable.len c it = ok L) (hf : vs.length < fuel)
    (hw : 0 < w) (hu : (L + 2) * w < c.usize) :
    scalarCollectAll c fuel it = ub ↔
      c.debug = false ∧ L < (vs.length + if t.isSome then 1 else 0) * w := by
  rw [C135_collect_all c fuel it it1 it' vs t L hr he hL hf hw hu]
  have e : (vs ++ (t.map Prod.fst).toList).length = vs.length + if t.isSome then 1 else 0 := by
    cases t <;> simp
  rw [e]
  generalize (vs.length + if t.isSome then 1 else 0) * w = m
  by_cases h : L < m
  · rw [if_pos h]
    simp only [badAccess, h, and_true]
    cases c.debug <;> simp
  · rw [if_neg h]
    simp [h]

/-- **C135**, iterators of which `next` (after returning the vectors `vs`) or `end` panics: the
consumers panic as well, unless the vectors did not fit. -/
theorem C135_panics [Packable α] (c : Cfg) (fuel : Nat) (it : I) (vs : List (Vector α w))
    (buf : List α) (h : Emits c it vs panic) (hf : vs.length < fuel) (hu : buf.length + w < c.usize) :
    scalarFill c fuel it buf = (if buf.length < vs.length * w then badAccess c else panic) ∧
    scalarFillAll c fuel it buf = (if buf.length < vs.length * w then badAccess c else panic) := by
  obtain ⟨r, hr, he⟩ := h
  constructor
  · simp only [scalarFill]
    split
    · rename_i h1
      rw [fillLoop_runs_short id hr fuel buf 0 _ hf (by omega) (by omega) hu]
      simp
    · rename_i h1
      rw [fillLoop_runs id hr fuel buf 0 _ hf (by omega) (by omega)]
      cases r with
      | ok x => simp only [ok_bind] at he ⊢; simp [← he]
      | _ => simp_all
  · simp only [scalarFillAll, scalarFillAllCells]
    split
    · rename_i h1
      rw [fillAllLoop_runs_short id hr fuel buf 0 hf (by omega) (by omega) hu]
      simp
    · rename_i h1
      rw [fillAllLoop_runs id hr fuel buf 0 hf (by omega) (by omega)]
      cases r with
      | ok x => simp only [ok_bind] at he ⊢; simp [← he]
      | _ => simp_all

/-- The same for `scalar_collect`, whose buffer has room for one vector more than `len` says. -/
theorem C135_collect_panics [Packable α] (c : Cfg) (fuel : Nat) (it : I) (vs : List (Vector α w))
    (L : Nat) (h : Emits c it vs panic) (hL : SIMDIterable.len c it = ok L) (hf : vs.length < fuel)
    (hw : 0 < w) (hu : (L + 2) * w < c.usize) :
    scalarCollect c fuel it = if L + 1 < vs.length then badAccess c else panic := by
  have e1 : (L + 2) * w = (L + 1) * w + w := Nat.succ_mul (L + 1) w
  have h2 : L + 1 ≤ (L + 1) * w := Nat.le_mul_of_pos_right _ hw
  obtain ⟨r, hr, he⟩ := h
  simp only [scalarCollect, hL, ok_bind]
  rw [uadd_ok (by omega)]
  simp only [ok_bind]
  rw [umul_ok (by omega)]
  simp only [ok_bind]
  have e0 : (RVec.withCapacity ((L + 1) * w) : RVec α).setLen ((L + 1) * w) =
      ok ⟨List.replicate ((L + 1) * w) none, (L + 1) * w⟩ := by
    simp [RVec.setLen, RVec.withCapacity]
  rw [e0]
  simp only [ok_bind]
  split
  · rename_i h1
    have h3 : (L + 1) * w < vs.length * w := Nat.mul_lt_mul_of_pos_right h1 hw
    rw [fillLoop_runs_short some hr fuel _ 0 _ hf (by omega) (by simp [RVec.slice]; omega)
      (by simp [RVec.slice]; omega)]
    simp
  · rename_i h1
    have h3 : vs.length * w ≤ (L + 1) * w := Nat.mul_le_mul_right w (by omega)
    rw [fillLoop_runs some hr fuel _ 0 _ hf (by simp [RVec.slice]; omega) (by omega)]
    cases r with
    | ok x => simp only [ok_bind] at he ⊢; simp [← he]
    | _ => simp_all

/-- At most `k` calls of `next`, until it returns `None`. -/
def takeUpTo (c : Cfg) : (k : Nat) → I → Res (List (Vector α w) × I)
  | 0, it => ok ([], it)
  | k + 1, it => do
    match ← next c it with
    | (none, it) => ok ([], it)
    | (some v, it) =>
      let (vs, it) ← takeUpTo c k it
      ok (v :: vs, it)

theorem unrolled_loop_any (c : Cfg) (amt : Nat) : ∀ (k i : Nat) (it : I)
    (s : Vector (Vector α w) 8), i + k ≤ 8 →
    (∀ vs it1, takeUpTo c k it = ok (vs, it1) →
      ∃ s', Unrolled.nextLoop c k i ⟨it, amt, s⟩ = ok (i + vs.length, ⟨it1, amt, s'⟩) ∧
        vs.length ≤ k ∧ s'.toList = splice s.toList i vs) ∧
    ((∀ x, takeUpTo (α := α) (w := w) c k it ≠ ok x) →
      Unrolled.nextLoop c k i ⟨it, amt, s⟩ = (takeUpTo (α := α) (w := w) c k it).castFail) := by
  intro k
  induction k with
  | zero =>
    intro i it s _
    refine ⟨?_, fun h => absurd rfl (h _)⟩
    intro vs it1 h
    simp only [takeUpTo, ok.injEq, Prod.mk.injEq] at h
    obtain ⟨rfl, rfl⟩ := h
    exact ⟨s, by simp [Unrolled.nextLoop], by simp, (splice_nil _ _).symm⟩
  | succ k ih =>
    intro i it s hi
    simp only [takeUpTo, Unrolled.nextLoop]
    cases hn : SIMDIterable.next (α := α) (w := w) c it with
    | ok q =>
      obtain ⟨_ | v, it2⟩ := q
      · simp only [ok_bind]
        refine ⟨?_, fun h => absurd rfl (h _)⟩
        intro vs it1 h
        simp only [ok.injEq, Prod.mk.injEq] at h
        obtain ⟨rfl, rfl⟩ := h
        exact ⟨s, by simp, by simp, (splice_nil _ _).symm⟩
      · simp only [ok_bind, show i < 8 by omega, dite_true]
        obtain ⟨h1, h2⟩ := ih (i + 1) it2 (s.set i v) (by omega)
        cases ht : takeUpTo (α := α) (w := w) c k it2 with
        | ok q =>
          obtain ⟨us, it3⟩ := q
          simp only [ok_bind]
          refine ⟨?_, fun h => absurd rfl (h _)⟩
          intro vs it1 h
          simp only [ok.injEq, Prod.mk.injEq] at h
          obtain ⟨rfl, rfl⟩ := h
          obtain ⟨s', e1, e2, e3⟩ := h1 us it3 ht
          refine ⟨s', ?_, by simp; omega, ?_⟩
          · rw [e1]; simp; omega
          · rw [e3]
            have hs : s.toList.length = 8 := by simp
            have e4 : (s.set i v).toList = splice s.toList i [v] := by
              rw [Vector.toList_set, splice, List.set_eq_take_append_cons_drop, if_pos (by omega)]
              simp
            have := splice_splice s.toList i [v] us (by simp; omega)
            simpa [e4] using this
        | _ =>
          rw [ht] at h2
          refine ⟨fun vs it1 h => (by cases h), fun _ => ?_⟩
          rw [h2 (by intro x h; cases h)]
          rfl
    | _ => exact ⟨fun vs it1 h => (by cases h), fun _ => rfl⟩

/-- **C135**, `unroll` of any iterator, `next` of which may also go on after `None`: the slice has
the vectors which at most `amt` calls of `next` returned, and lies within the buffer of eight. -/
theorem C135_unroll [Packable α] (c : Cfg) (it : I) (amt : Nat) (s : Vector (Vector α w) 8) :
    (unroll it amt : Res (Unrolled I α w)) =
      (if amt ≤ 8 then ok ⟨it, amt, Vector.replicate 8 Packed.default⟩ else panic) ∧
    (amt ≤ 8 → ∀ vs it1, takeUpTo c amt it = ok (vs, it1) →
      ∃ s', Unrolled.next c ⟨it, amt, s⟩ =
          ok (if vs = [] then none else some ⟨vs.length⟩, ⟨it1, amt, s'⟩) ∧
        vs.length ≤ amt ∧ s'.toList = vs ++ s.toList.drop vs.length) ∧
    (amt ≤ 8 → (∀ x, takeUpTo (α := α) (w := w) c amt it ≠ ok x) →
      Unrolled.next c ⟨it, amt, s⟩ = (takeUpTo (α := α) (w := w) c amt it).castFail) := by
  refine ⟨?_, ?_, ?_⟩
  · simp only [unroll, assert]
    by_cases h : amt ≤ 8 <;> simp [h]
  · intro ha vs it1 h
    obtain ⟨s', e1, e2, e3⟩ := (unrolled_loop_any c amt amt 0 it s (by omega)).1 vs it1 h
    refine ⟨s', ?_, e2, by rw [e3, splice_zero]⟩
    simp only [Unrolled.next, e1, ok_bind, Nat.zero_add]
    cases vs <;> simp
  · intro ha h
    have e1 := (unrolled_loop_any c amt amt 0 it s (by omega)).2 h
    simp only [Unrolled.next, e1]
    cases hx : takeUpTo (α := α) (w := w) c amt it with
    | ok x => exact absurd hx (h x)
    | _ => rfl

end C135

-- `len` is the number of vectors, as the crate's own iterators say: too little room
example : scalarCollectAll release64 9 (⟨[#v[1, 2]], none, 1⟩ : Stub) = ub :=
  (C135_collect_all_ub release64 9 (⟨[#v[1, 2]], none, 1⟩ : Stub) ⟨[], none, 1⟩ ⟨[], none, 1⟩
    [#v[1, 2]] none 1 (.step rfl (.done rfl)) rfl rfl (by decide) (by decide) (by decide)).2
    (by decide)
-- `len` is more than the number of elements: uninitialised elements are returned
example : scalarCollectAll release64 9 (⟨[#v[1, 2]], none, 3⟩ : Stub) =
    ok (⟨[], none, 3⟩, [some 1, some 2, none]) := by decide +kernel

/-- An iterator of one vector whose `next` or `end` panics afterwards, and which goes on after that. -/
structure Fuse where
  left : Nat
  atEnd : Bool
deriving Repr, DecidableEq

instance : SIMDSized Fuse where
  scalarLen _ s := ok s.left

instance : SIMDIterator Fuse (BitVec 8) 2 where
  next _ s := match s.left, s.atEnd with
    | 0, false => Res.panic
    | 0, true => ok (none, { s with left := 1 })
    | n + 1, _ => ok (some #v[1, 2], { s with left := n })
  len _ s := ok s.left
  scalarPos _ _ := ok 0
  advance _ s _ := ok s
  dflt _ := #v[0, 0]
  end_ _ _ := Res.panic

theorem fuse_emits (b : Bool) : Emits release64 (⟨1, b⟩ : Fuse) [#v[1#8, 2]] panic := by
  cases b
  · exact ⟨panic, .step rfl (.fail (r := Res.panic) rfl (by simp)), rfl⟩
  · exact ⟨ok ⟨1, true⟩, .step rfl (.done rfl), rfl⟩

example (b : Bool) : scalarFill release64 9 (⟨1, b⟩ : Fuse) [0#8, 0, 0] = Res.panic :=
  (C135_panics release64 9 _ _ _ (fuse_emits b) (by decide) (by decide)).1
example (b : Bool) : scalarFill release64 9 (⟨1, b⟩ : Fuse) [0#8] = ub :=
  (C135_panics release64 9 _ _ _ (fuse_emits b) (by decide) (by decide)).1
example (b : Bool) : scalarCollect (α := BitVec 8) (w := 2) release64 9 (⟨1, b⟩ : Fuse) = Res.panic :=
  C135_collect_panics release64 9 _ _ 1 (fuse_emits b) rfl (by decide) (by decide) (by decide)

-- the second slice starts again after `None`
example : takeUpTo (α := BitVec 8) (w := 2) release64 3 (⟨1, true⟩ : Fuse) =
    ok ([#v[1, 2]], ⟨1, true⟩) := rfl

end Faster
