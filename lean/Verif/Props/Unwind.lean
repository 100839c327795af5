import Verif.Unwind
import Verif.Lemmas.Map
import Verif.Lemmas.Zip
import Verif.Props.ForEach
import Verif.Props.Stride
import Verif.Props.Zip
/-
C117: iterators and buffers after a panic of a closure.
-/
namespace Faster
open Res SIMDSized SIMDIterable SIMDIterator

/-! ### The model with places agrees with the one without -/

namespace MutM
variable {S B α β : Type}

theorem obs_ok {x : MutM S α} {s s' : S} {a : α} : obs x s = ok (a, s') ↔ x s = (ok a, s') := by
  unfold obs
  rcases h : x s with ⟨r, t⟩
  cases r <;> simp

theorem obs_bind (x : MutM S α) (f : α → MutM S β) (s : S) :
    obs (x >>= f) s = obs x s >>= fun p => obs (f p.1) p.2 := by
  have e : (x >>= f) s = MutM.bind x f s := rfl
  unfold obs
  rw [e]
  unfold MutM.bind
  rcases h : x s with ⟨r, t⟩
  cases r <;> rfl

theorem obs_pure (a : α) (s : S) : obs (Pure.pure a : MutM S α) s = ok (a, s) := rfl
theorem obs_get (s : S) : obs (get : MutM S S) s = ok (s, s) := rfl
theorem obs_lift (x : Res α) (s : S) : obs (lift x) s = x >>= fun a => ok (a, s) := rfl

theorem obs_call (f : S → Res (α × S)) (s : S) : obs (call f) s = f s := by
  unfold obs call
  rcases h : f s with ⟨a, t⟩ | _ | _ | _ <;> rfl

theorem obs_modify (f : S → Res S) (s : S) : obs (modify f) s = f s >>= fun t => ok ((), t) := by
  rw [modify, obs_call]

theorem obs_onFst (x : MutM S α) (s : S × B) :
    obs (onFst x) s = obs x s.1 >>= fun p => ok (p.1, (p.2, s.2)) := by
  unfold obs onFst
  rcases h : x s.1 with ⟨r, t⟩
  cases r <;> rfl

theorem obs_onSnd (x : MutM B α) (s : S × B) :
    obs (onSnd x) s = obs x s.2 >>= fun p => ok (p.1, (s.1, p.2)) := by
  unfold obs onSnd
  rcases h : x s.2 with ⟨r, t⟩
  cases r <;> rfl

end MutM

open MutM

/-- Without a panic, `nextU` and `endU` are `next` and `end`; with a panic, they panic. -/
class LawfulUnwind (I α : Type) (w : Nat) [SIMDSized I] [SIMDIterator I α w] [Unwind I α w] : Prop where
  next_run (c : Cfg) (it : I) : obs (Unwind.nextU c) it = SIMDIterable.next c it
  end_run (c : Cfg) (it : I) : obs (Unwind.endU c) it = SIMDIterator.end_ c it

class LawfulUnwindZ (Z γ : Type) [SIMDZippedIterator Z γ] [UnwindZ Z γ] : Prop where
  next_run (c : Cfg) (it : Z) : obs (UnwindZ.nextU c) it = SIMDZippedIterator.next c it
  end_run (c : Cfg) (it : Z) : obs (UnwindZ.endU c) it = SIMDZippedIterator.end_ c it

instance {A α : Type} {w : Nat} [SIMDSized A] [SIMDArray A α w] : LawfulUnwind (SIMDIter A α w) α w where
  next_run _ _ := obs_call _ _
  end_run _ _ := obs_call _ _

instance {A α : Type} {w : Nat} [Packable α] [SIMDSized A] [SIMDArray A α w] :
    LawfulUnwind (PackedStride A α w) α w where
  next_run _ _ := obs_call _ _
  end_run _ _ := obs_call _ _

theorem obs_mapOnIter {I σ α β : Type} {w w' : Nat} {r : Type} (x : MutM I r) (m : SIMDMap I σ α w β w') :
    obs (SIMDMap.onIter x) m = obs x m.iter >>= fun p => ok (p.1, { m with iter := p.2 }) := by
  unfold obs SIMDMap.onIter
  rcases h : x m.iter with ⟨r, t⟩
  cases r <;> rfl

theorem obs_zipOnFirst {I R : Type} {r : Type} (x : MutM I r) (z : Zip I R) :
    obs (Zip.onFirst x) z = obs x z.first >>= fun p => ok (p.1, { z with first := p.2 }) := by
  unfold obs Zip.onFirst
  rcases h : x z.first with ⟨r, t⟩
  cases r <;> rfl

theorem obs_zmapOnIter {Z σ γ β : Type} {w' : Nat} {r : Type} (x : MutM Z r) (m : SIMDZipMap Z σ γ β w') :
    obs (SIMDZipMap.onIter x) m = obs x m.iter >>= fun p => ok (p.1, { m with iter := p.2 }) := by
  unfold obs SIMDZipMap.onIter
  rcases h : x m.iter with ⟨r, t⟩
  cases r <;> rfl

theorem map_id_vec {α : Type} {w : Nat} (v : Vector α w) : v.map id = v := by simp

section
variable {I σ α β : Type} {w w' : Nat} [SIMDSized I] [SIMDIterator I α w] [Unwind I α w]
  [Packable α] [Packable β]

instance [LawfulUnwind I α w] : LawfulUnwind (SIMDMap I σ α w β w') β w' where
  next_run c m := by
    simp only [Unwind.nextU, SIMDIterable.next, SIMDMap.next, obs_bind, obs_mapOnIter,
      LawfulUnwind.next_run, bind_assoc, ok_bind]
    congr 1; funext ⟨r, it⟩
    cases r with
    | none => rfl
    | some v =>
      simp only [obs_bind, SIMDMap.callU, obs_call, bind_assoc, ok_bind, obs_pure]
  end_run c m := by
    simp only [Unwind.endU, SIMDIterator.end_, SIMDMap.end_, obs_bind, obs_mapOnIter,
      LawfulUnwind.end_run, bind_assoc, ok_bind]
    congr 1; funext ⟨r, it⟩
    cases r with
    | none => rfl
    | some v =>
      simp only [obs_bind, SIMDMap.callU, obs_call, bind_assoc, ok_bind, obs_pure, obs_lift]
end

section
variable {I R α γ : Type} {w : Nat} [SIMDSized I] [SIMDIterator I α w] [Packable α] [Unwind I α w] [ZipRest R γ]

instance [LawfulUnwind I α w] : LawfulUnwindZ (Zip I R) (Vector α w × γ) where
  next_run c z := by
    simp only [UnwindZ.nextU, SIMDZippedIterator.next, Zip.next, obs_bind, obs_zipOnFirst, obs_get, obs_lift,
      LawfulUnwind.next_run, bind_assoc, ok_bind]
    congr 1; funext pos
    congr 1; funext ⟨r, it⟩
    cases r with
    | none => rfl
    | some v =>
      simp only [obs_bind, bind_assoc, ok_bind, obs_pure, obs_get, obs_lift]
  end_run c z := by
    simp only [UnwindZ.endU, SIMDZippedIterator.end_, Zip.end_, obs_bind, obs_zipOnFirst, obs_get, obs_lift,
      LawfulUnwind.end_run, bind_assoc, ok_bind]
    congr 1; funext pos
    congr 1; funext ⟨r, it⟩
    cases r with
    | none => rfl
    | some v =>
      simp only [obs_bind, bind_assoc, ok_bind, obs_pure, obs_get, obs_lift]
end

section
variable {Z σ γ β : Type} {w' : Nat} [SIMDZippedIterator Z γ] [UnwindZ Z γ] [Packable β]

instance [LawfulUnwindZ Z γ] : LawfulUnwind (SIMDZipMap Z σ γ β w') β w' where
  next_run c m := by
    simp only [Unwind.nextU, SIMDIterable.next, SIMDZipMap.next, obs_bind, obs_zmapOnIter,
      LawfulUnwindZ.next_run, bind_assoc, ok_bind]
    congr 1; funext ⟨r, it⟩
    cases r with
    | none => rfl
    | some v =>
      simp only [obs_bind, SIMDZipMap.callU, obs_call, bind_assoc, ok_bind, obs_pure]
  end_run c m := by
    simp only [Unwind.endU, SIMDIterator.end_, SIMDZipMap.end_, obs_bind, obs_zmapOnIter,
      LawfulUnwindZ.end_run, bind_assoc, ok_bind]
    congr 1; funext ⟨r, it⟩
    cases r with
    | none => rfl
    | some v =>
      simp only [obs_bind, SIMDZipMap.callU, obs_call, bind_assoc, ok_bind, obs_pure, obs_lift, obs_get]
end

section
variable {I α : Type} {w : Nat} [SIMDSized I] [SIMDIterator I α w] [Unwind I α w] [LawfulUnwind I α w]

theorem obs_fillLoopU (c : Cfg) : ∀ (fuel : Nat) (it : I) (buf : List α) (o : Nat) (last : Vector α w),
    obs (fillLoopU c fuel o last) (it, buf) =
      fillLoop c id fuel it buf o last >>= fun p => ok ((p.2.2.1, p.2.2.2), (p.1, p.2.1))
  | 0, _, _, _, _ => rfl
  | fuel + 1, it, buf, o, last => by
    simp only [fillLoopU, fillLoop, obs_bind, obs_onFst, LawfulUnwind.next_run, bind_assoc, ok_bind]
    congr 1; funext ⟨r, it⟩
    cases r with
    | none => rfl
    | some v =>
      simp only [obs_bind, obs_onSnd, obs_modify, bind_assoc, ok_bind, obs_lift, map_id_vec]
      congr 1; funext buf
      congr 1; funext o
      exact obs_fillLoopU c fuel it buf o v

omit [SIMDSized I] [SIMDIterator I α w] [Unwind I α w] [LawfulUnwind I α w] in
theorem obs_fillTailLoopU (c : Cfg) (p : Vector α w) (n o : Nat) : ∀ (k i : Nat) (it : I) (buf : List α),
    obs (fillTailLoopU c p n o k i) (it, buf) =
      fillTailLoop c id p n o k i buf >>= fun b => ok ((), (it, b))
  | 0, _, _, _ => rfl
  | k + 1, i, it, buf => by
    simp only [fillTailLoopU, fillTailLoop, obs_bind, obs_onSnd, obs_modify, obs_lift, bind_assoc, ok_bind]
    congr 1; funext j
    congr 1; funext x
    congr 1; funext b
    congr 1; funext b
    exact obs_fillTailLoopU c p n o k (i + 1) it b

/-- **C117**: `scalar_fill` with the places kept is `scalar_fill`. -/
theorem C117_same_fill [Packable α] (c : Cfg) (fuel : Nat) (it : I) (buf : List α) :
    obs (scalarFillU c fuel) (it, buf) = scalarFill c fuel it buf >>= fun p => ok ((), p) := by
  simp only [scalarFillU, scalarFill, obs_bind, obs_fillLoopU, obs_onFst, LawfulUnwind.end_run,
    bind_assoc, ok_bind]
  congr 1; funext ⟨it, buf, o, last⟩
  simp only []
  congr 1; funext ⟨r, it⟩
  cases r with
  | none => rfl
  | some q =>
    obtain ⟨p, n⟩ := q
    simp only [fillTail, map_id_vec]
    by_cases ho : o > 0
    · simp only [ho, if_true, obs_bind, obs_lift, obs_onSnd, obs_modify, bind_assoc, ok_bind]
    · simp only [ho, if_false, obs_bind, obs_lift, bind_assoc, ok_bind, obs_fillTailLoopU]

theorem obs_doEachLoopU {σ : Type} (c : Cfg) (func : FnMut σ (Vector α w) Unit) :
    ∀ (fuel : Nat) (st : σ) (it : I), obs (doEachLoopU c func fuel st) it =
      doEachLoop c func fuel it st >>= fun p => ok (p.2, p.1)
  | 0, _, _ => rfl
  | fuel + 1, st, it => by
    simp only [doEachLoopU, doEachLoop, obs_bind, LawfulUnwind.next_run, bind_assoc]
    congr 1; funext ⟨r, it⟩
    cases r with
    | none => rfl
    | some v =>
      simp only [obs_bind, bind_assoc, ok_bind, obs_lift]
      congr 1; funext ⟨_, st⟩
      exact obs_doEachLoopU c func fuel st it

/-- **C117**: `simd_do_each` with the place kept is `simd_do_each`. -/
theorem C117_same_do_each {σ : Type} (c : Cfg) (func : FnMut σ (Vector α w) Unit) (fuel : Nat)
    (st : σ) (it : I) : obs (simdDoEachU c fuel st func) it =
      simdDoEach c fuel it st func >>= fun p => ok (p.2, p.1) := by
  simp only [simdDoEachU, simdDoEach, obs_bind, obs_doEachLoopU, LawfulUnwind.end_run, bind_assoc,
    ok_bind]
  congr 1; funext ⟨it, st⟩
  simp only []
  congr 1; funext ⟨r, it⟩
  cases r with
  | none => rfl
  | some v => simp only [obs_bind, bind_assoc, ok_bind, obs_lift, obs_pure]

end

/-! ### A panic in the middle of a pass -/

section
variable {I α : Type} {w : Nat} [Unwind I α w]

/-- A pass by `next` and `end` which delivers the vectors `vs` by `next` and then panics, leaving
the iterator `s`. -/
inductive StopsAt (c : Cfg) : I → List (Vector α w) → I → Prop where
  | next {it s : I} : Unwind.nextU c it = (panic, s) → StopsAt c it [] s
  | tail {it it1 s : I} : Unwind.nextU c it = (ok none, it1) → Unwind.endU c it1 = (panic, s) →
      StopsAt c it [] s
  | step {it it1 s : I} {v : Vector α w} {vs : List (Vector α w)} :
      Unwind.nextU c it = (ok (some v), it1) → StopsAt c it1 vs s → StopsAt c it (v :: vs) s

theorem bind_ok_apply {S β γ : Type} {x : MutM S β} {f : β → MutM S γ} {s s' : S} {a : β}
    (h : x s = (ok a, s')) : (x >>= f) s = f a s' := by
  show MutM.bind x f s = _
  unfold MutM.bind; rw [h]

theorem bind_panic_apply {S β γ : Type} {x : MutM S β} {f : β → MutM S γ} {s s' : S}
    (h : x s = (panic, s')) : (x >>= f) s = (panic, s') := by
  show MutM.bind x f s = _
  unfold MutM.bind; rw [h]

theorem scalarFillU_stops [Packable α] {c : Cfg} {it s : I} {vs : List (Vector α w)}
    (h : StopsAt c it vs s) (buf : List α) (fuel : Nat) (hf : vs.length < fuel)
    (hb : vs.length * w ≤ buf.length) (hu : vs.length * w < c.usize) :
    scalarFillU c fuel (it, buf) = (panic, (s, splice buf 0 (lanes vs))) := by
  unfold scalarFillU
  suffices hl : ∀ (o : Nat) (last : Vector α w) (buf : List α) (fuel : Nat), vs.length < fuel →
      o + vs.length * w ≤ buf.length → o + vs.length * w < c.usize →
      fillLoopU c fuel o last (it, buf) = (panic, (s, splice buf o (lanes vs))) ∨
      ∃ p it1, fillLoopU c fuel o last (it, buf) = (ok p, (it1, splice buf o (lanes vs))) ∧
        Unwind.endU c it1 = (panic, s) by
    rcases hl 0 Packed.default buf fuel hf (by omega) (by omega) with h | ⟨p, it1, h, h2⟩
    · exact bind_panic_apply h
    · rw [bind_ok_apply h]
      obtain ⟨o, last⟩ := p
      refine bind_panic_apply ?_
      unfold MutM.onFst
      rw [h2]
  clear hf hb hu buf fuel
  induction h with
  | next h =>
    intro o last buf fuel hf hb hu
    obtain ⟨f, rfl⟩ : ∃ f, fuel = f + 1 := ⟨fuel - 1, by omega⟩
    left
    unfold fillLoopU
    rw [show splice buf o (lanes []) = buf by simp [lanes, splice]]
    refine bind_panic_apply ?_
    unfold MutM.onFst
    rw [h]
  | @tail it it1 s h h2 =>
    intro o last buf fuel hf hb hu
    obtain ⟨f, rfl⟩ : ∃ f, fuel = f + 1 := ⟨fuel - 1, by omega⟩
    right
    refine ⟨(o, last), it1, ?_, h2⟩
    unfold fillLoopU
    rw [show splice buf o (lanes []) = buf by simp [lanes, splice]]
    rw [bind_ok_apply (s' := (it1, buf)) (a := none) (by unfold MutM.onFst; rw [h])]
    rfl
  | @step it it1 s v vs h h2 ih =>
    intro o last buf fuel hf hb hu
    obtain ⟨f, rfl⟩ : ∃ f, fuel = f + 1 := ⟨fuel - 1, by omega⟩
    simp only [List.length_cons, Nat.succ_mul] at hb hu hf
    have hs : Packed.storeUnchecked c v buf o = ok (splice buf o v.toList) :=
      storeUnchecked_ok (by omega)
    have e : fillLoopU c (f + 1) o last (it, buf) =
        fillLoopU c f (o + w) v (it1, splice buf o v.toList) := by
      rw [fillLoopU]
      refine (bind_ok_apply (s' := (it1, buf)) (a := some v) (by unfold MutM.onFst; rw [h])).trans ?_
      refine (bind_ok_apply (s' := (it1, splice buf o v.toList)) (a := ())
        (by simp [MutM.onSnd, MutM.modify, MutM.call, hs])).trans ?_
      exact (bind_ok_apply (s' := (it1, splice buf o v.toList)) (a := o + w)
        (by simp [MutM.lift, uadd_ok (show o + w < c.usize by omega)]))
    rw [e]
    have hl : (splice buf o v.toList).length = buf.length := splice_length _ _ _ (by simp; omega)
    have := ih (o + w) v (splice buf o v.toList) f (by omega) (by rw [hl]; omega) (by omega)
    have es : splice (splice buf o v.toList) (o + w) (lanes vs) = splice buf o (lanes (v :: vs)) := by
      rw [show o + w = o + v.toList.length by simp, splice_splice]
      · rfl
      · rw [lanes_length]; simp; omega
    rw [es] at this
    exact this

/-- A map over an iterator which panics: its closure sees the vectors delivered before, and the
map keeps the iterator as the panic left it. -/
theorem StopsAt.map {τ β : Type} {w' : Nat} {c : Cfg} {it s : I} {vs : List (Vector α w)} (h : StopsAt c it vs s)
    [Packable α] [Packable β] (g : FnMut τ (Vector α w) (Vector β w')) (st st' : τ) (us : List (Vector β w'))
    (hg : callAll g st vs = ok (us, st')) :
    StopsAt c (⟨it, st, g⟩ : SIMDMap I τ α w β w') us ⟨s, st', g⟩ := by
  induction h generalizing st us with
  | @next it s h =>
    simp only [callAll, ok.injEq, Prod.mk.injEq] at hg
    obtain ⟨rfl, rfl⟩ := hg
    refine StopsAt.next (bind_panic_apply ?_)
    unfold SIMDMap.onIter
    rw [h]
  | @tail it it1 s h h2 =>
    simp only [callAll, ok.injEq, Prod.mk.injEq] at hg
    obtain ⟨rfl, rfl⟩ := hg
    refine StopsAt.tail (it1 := ⟨it1, st, g⟩) ?_ ?_
    · exact bind_ok_apply (s' := (⟨it1, st, g⟩ : SIMDMap I τ α w β w')) (a := none)
        (by unfold SIMDMap.onIter; rw [h])
    · refine bind_panic_apply ?_
      unfold SIMDMap.onIter
      rw [h2]
  | @step it it1 s v vs h h2 ih =>
    simp only [callAll] at hg
    cases hv : g st v with
    | ok q =>
      obtain ⟨u, st1⟩ := q
      rw [hv, ok_bind] at hg
      cases hc : callAll g st1 vs with
      | ok q2 =>
        obtain ⟨us2, st2⟩ := q2
        simp only [hc, ok_bind, ok.injEq, Prod.mk.injEq] at hg
        obtain ⟨rfl, rfl⟩ := hg
        refine StopsAt.step (it1 := ⟨it1, st1, g⟩) ?_ (ih st1 us2 hc)
        refine (bind_ok_apply (s' := (⟨it1, st, g⟩ : SIMDMap I τ α w β w')) (a := some v)
          (by unfold SIMDMap.onIter; rw [h])).trans ?_
        exact bind_ok_apply (s' := (⟨it1, st1, g⟩ : SIMDMap I τ α w β w')) (a := u)
          (by simp [SIMDMap.callU, MutM.call, hv])
      | _ => simp [hc] at hg
    | _ => simp [hv] at hg

end

section
variable {I σ α β : Type} {w w' : Nat} [SIMDSized I] [SIMDIterator I α w] [Unwind I α w]
  [LawfulUnwind I α w] [Packable α] [Packable β]

omit [Packable α] in
theorem nextU_of_next {c : Cfg} {it it' : I} {o : Option (Vector α w)}
    (h : SIMDIterable.next c it = ok (o, it')) : Unwind.nextU c it = (ok o, it') :=
  obs_ok.mp ((LawfulUnwind.next_run c it).trans h)

omit [Packable α] in
theorem endU_of_end {c : Cfg} {it it' : I} {o : Option (Vector α w × Nat)}
    (h : SIMDIterator.end_ c it = ok (o, it')) : Unwind.endU c it = (ok o, it') :=
  obs_ok.mp ((LawfulUnwind.end_run c it).trans h)

/-- The iterator after `n` vectors. -/
def nextN (c : Cfg) : Nat → I → Res I
  | 0, it => ok it
  | n + 1, it => do
    let (r, it) ← SIMDIterable.next c it
    match r with
    | some _ => nextN c n it
    | none => panic

/-- A map whose closure panics at call `k` of a pass. -/
theorem simdMap_stops {c : Cfg} (f : FnMut σ (Vector α w) (Vector β w')) {it it' : I}
    {vs : List (Vector α w)} {t : Option (Vector α w × Nat)} (h : Emits c it vs (ok (t, it')))
    (hs : 0 < Packable.size β) (hu : ∀ p n, t = some (p, n) → n * Packable.size α < c.usize)
    (st st' : σ) (us : List (Vector β w')) (k : Nat) (v : Vector α w)
    (hk : (withTail vs t)[k]? = some v)
    (hf : callAll f st ((withTail vs t).take k) = ok (us, st')) (hp : f st' v = panic) :
    ∃ s, StopsAt c (⟨it, st, f⟩ : SIMDMap I σ α w β w') us ⟨s, st', f⟩ ∧
      (if k < vs.length then nextN c (k + 1) it = ok s ∧ Emits c s (vs.drop (k + 1)) (ok (t, it'))
        else s = it') := by
  obtain ⟨r, h1, h2⟩ := h
  induction h1 generalizing st us k with
  | @done it it1 h =>
    simp only [ok_bind] at h2
    have hn := nextU_of_next h
    have he := endU_of_end h2.symm
    rcases t with _ | ⟨p, n⟩
    · simp [withTail] at hk
    · cases k with
      | succ k => simp [withTail] at hk
      | zero =>
        simp only [withTail, List.nil_append, Option.toList_some, List.map_cons, List.map_nil,
          List.getElem?_cons_zero, Option.some.injEq] at hk
        subst hk
        simp only [List.take_zero, callAll, ok.injEq, Prod.mk.injEq] at hf
        obtain ⟨rfl, rfl⟩ := hf
        refine ⟨it', StopsAt.tail (it1 := ⟨it1, st, f⟩) ?_ ?_, by simp⟩
        · exact bind_ok_apply (s' := (⟨it1, st, f⟩ : SIMDMap I σ α w β w')) (a := none)
            (by unfold SIMDMap.onIter; rw [hn])
        · refine (bind_ok_apply (s' := (⟨it', st, f⟩ : SIMDMap I σ α w β w')) (a := some (p, n))
            (by unfold SIMDMap.onIter; rw [he])).trans ?_
          refine (bind_ok_apply (s' := (⟨it', st, f⟩ : SIMDMap I σ α w β w'))
            (a := n * Packable.size α / Packable.size β)
            (by rw [umul_ok (hu p n rfl), ok_bind, udiv_ok hs]; rfl)).trans ?_
          refine bind_panic_apply ?_
          simp [SIMDMap.callU, MutM.call, hp]
  | @fail it r h hr =>
    cases r with
    | ok a => exact absurd rfl (hr a)
    | _ => cases h2
  | @step it it1 v1 vs r h1 h3 ih =>
    have hn := nextU_of_next h1
    have e1 : SIMDMap.onIter (Unwind.nextU c) (⟨it, st, f⟩ : SIMDMap I σ α w β w') =
        (ok (some v1), ⟨it1, st, f⟩) := by unfold SIMDMap.onIter; rw [hn]
    cases k with
    | zero =>
      simp only [withTail, List.cons_append, List.getElem?_cons_zero, Option.some.injEq] at hk
      subst hk
      simp only [List.take_zero, callAll, ok.injEq, Prod.mk.injEq] at hf
      obtain ⟨rfl, rfl⟩ := hf
      refine ⟨it1, StopsAt.next ?_, ?_⟩
      · refine (bind_ok_apply e1).trans ?_
        refine bind_panic_apply ?_
        simp [SIMDMap.callU, MutM.call, hp]
      · simp only [List.length_cons, Nat.zero_lt_succ, if_true, List.drop_succ_cons, List.drop_zero]
        exact ⟨by simp [nextN, h1], r, h3, h2⟩
    | succ k =>
      have e2 : withTail (v1 :: vs) t = v1 :: withTail vs t := rfl
      rw [e2] at hk hf
      simp only [List.getElem?_cons_succ, List.take_succ_cons, callAll] at hk hf
      cases hv : f st v1 with
      | ok q =>
        obtain ⟨u, st1⟩ := q
        rw [hv, ok_bind] at hf
        cases hc : callAll f st1 ((withTail vs t).take k) with
        | ok q2 =>
          obtain ⟨us2, st2⟩ := q2
          simp only [hc, ok_bind, ok.injEq, Prod.mk.injEq] at hf
          obtain ⟨rfl, rfl⟩ := hf
          obtain ⟨s, hs1, hs2⟩ := ih st1 us2 k hk hc h2
          refine ⟨s, StopsAt.step (it1 := ⟨it1, st1, f⟩) ?_ hs1, ?_⟩
          · refine (bind_ok_apply e1).trans ?_
            exact bind_ok_apply (s' := (⟨it1, st1, f⟩ : SIMDMap I σ α w β w')) (a := u)
              (by simp [SIMDMap.callU, MutM.call, hv])
          · simpa [nextN, h1] using hs2
        | _ => simp [hc] at hf
      | _ => simp [hv] at hf

end

section
variable {Z σ γ β : Type} {w' : Nat} [SIMDZippedIterator Z γ] [UnwindZ Z γ] [LawfulUnwindZ Z γ]
  [Packable β]

omit [Packable β] in
theorem znextU_of_next {c : Cfg} {z z' : Z} {o : Option γ}
    (h : SIMDZippedIterator.next c z = ok (o, z')) : UnwindZ.nextU c z = (ok o, z') :=
  obs_ok.mp ((LawfulUnwindZ.next_run c z).trans h)

omit [Packable β] in
theorem zendU_of_end {c : Cfg} {z z' : Z} {o : Option (γ × Nat)}
    (h : SIMDZippedIterator.end_ c z = ok (o, z')) : UnwindZ.endU c z = (ok o, z') :=
  obs_ok.mp ((LawfulUnwindZ.end_run c z).trans h)

/-- The zip after `n` rows of vectors. -/
def znextN (c : Cfg) : Nat → Z → Res Z
  | 0, z => ok z
  | n + 1, z => do
    let (r, z) ← SIMDZippedIterator.next c z
    match r with
    | some _ => znextN c n z
    | none => panic

/-- A map of a zip whose closure panics at call `k` of a pass. -/
theorem zipMap_stops {c : Cfg} (f : FnMut σ γ (Vector β w')) {z z' : Z}
    {vs : List γ} {t : Option (γ × Nat)} (h : ZEmits c z vs (ok (t, z')))
    (hs : 0 < Packable.size β)
    (hu : ∀ p n, t = some (p, n) → n * SIMDZippedIterator.size z' < c.usize)
    (st st' : σ) (us : List (Vector β w')) (k : Nat) (v : γ)
    (hk : (zwithTail vs t)[k]? = some v)
    (hf : callAll f st ((zwithTail vs t).take k) = ok (us, st')) (hp : f st' v = panic) :
    ∃ s, StopsAt c (⟨z, st, f⟩ : SIMDZipMap Z σ γ β w') us ⟨s, st', f⟩ ∧
      (if k < vs.length then znextN c (k + 1) z = ok s ∧ ZEmits c s (vs.drop (k + 1)) (ok (t, z'))
        else s = z') := by
  obtain ⟨r, h1, h2⟩ := h
  induction h1 generalizing st us k with
  | @done z z1 h =>
    simp only [ok_bind] at h2
    have hn := znextU_of_next h
    have he := zendU_of_end h2.symm
    rcases t with _ | ⟨p, n⟩
    · simp [zwithTail] at hk
    · cases k with
      | succ k => simp [zwithTail] at hk
      | zero =>
        simp only [zwithTail, List.nil_append, Option.toList_some, List.map_cons, List.map_nil,
          List.getElem?_cons_zero, Option.some.injEq] at hk
        subst hk
        simp only [List.take_zero, callAll, ok.injEq, Prod.mk.injEq] at hf
        obtain ⟨rfl, rfl⟩ := hf
        refine ⟨z', StopsAt.tail (it1 := ⟨z1, st, f⟩) ?_ ?_, by simp⟩
        · exact bind_ok_apply (s' := (⟨z1, st, f⟩ : SIMDZipMap Z σ γ β w')) (a := none)
            (by unfold SIMDZipMap.onIter; rw [hn])
        · refine (bind_ok_apply (s' := (⟨z', st, f⟩ : SIMDZipMap Z σ γ β w')) (a := some (p, n))
            (by unfold SIMDZipMap.onIter; rw [he])).trans ?_
          refine (bind_ok_apply (x := MutM.get) (s' := (⟨z', st, f⟩ : SIMDZipMap Z σ γ β w'))
            (a := (⟨z', st, f⟩ : SIMDZipMap Z σ γ β w')) rfl).trans ?_
          refine (bind_ok_apply (s' := (⟨z', st, f⟩ : SIMDZipMap Z σ γ β w'))
            (a := n * SIMDZippedIterator.size z' / Packable.size β)
            (by rw [umul_ok (hu p n rfl), ok_bind, udiv_ok hs]; rfl)).trans ?_
          refine bind_panic_apply ?_
          simp [SIMDZipMap.callU, MutM.call, hp]
  | @fail z r h hr =>
    cases r with
    | ok a => exact absurd rfl (hr a)
    | _ => cases h2
  | @step z z1 v1 vs r h1 h3 ih =>
    have hn := znextU_of_next h1
    have e1 : SIMDZipMap.onIter (UnwindZ.nextU c) (⟨z, st, f⟩ : SIMDZipMap Z σ γ β w') =
        (ok (some v1), ⟨z1, st, f⟩) := by unfold SIMDZipMap.onIter; rw [hn]
    cases k with
    | zero =>
      simp only [zwithTail, List.cons_append, List.getElem?_cons_zero, Option.some.injEq] at hk
      subst hk
      simp only [List.take_zero, callAll, ok.injEq, Prod.mk.injEq] at hf
      obtain ⟨rfl, rfl⟩ := hf
      refine ⟨z1, StopsAt.next ?_, ?_⟩
      · refine (bind_ok_apply e1).trans ?_
        refine bind_panic_apply ?_
        simp [SIMDZipMap.callU, MutM.call, hp]
      · simp only [List.length_cons, Nat.zero_lt_succ, if_true, List.drop_succ_cons, List.drop_zero]
        exact ⟨by simp [znextN, h1], r, h3, h2⟩
    | succ k =>
      have e2 : zwithTail (v1 :: vs) t = v1 :: zwithTail vs t := rfl
      rw [e2] at hk hf
      simp only [List.getElem?_cons_succ, List.take_succ_cons, callAll] at hk hf
      cases hv : f st v1 with
      | ok q =>
        obtain ⟨u, st1⟩ := q
        rw [hv, ok_bind] at hf
        cases hc : callAll f st1 ((zwithTail vs t).take k) with
        | ok q2 =>
          obtain ⟨us2, st2⟩ := q2
          simp only [hc, ok_bind, ok.injEq, Prod.mk.injEq] at hf
          obtain ⟨rfl, rfl⟩ := hf
          obtain ⟨s, hs1, hs2⟩ := ih st1 us2 k hk hc h2
          refine ⟨s, StopsAt.step (it1 := ⟨z1, st1, f⟩) ?_ hs1, ?_⟩
          · refine (bind_ok_apply e1).trans ?_
            exact bind_ok_apply (s' := (⟨z1, st1, f⟩ : SIMDZipMap Z σ γ β w')) (a := u)
              (by simp [SIMDZipMap.callU, MutM.call, hv])
          · simpa [znextN, h1] using hs2
        | _ => simp [hc] at hf
      | _ => simp [hv] at hf

end

/-! ### Iterators over slices and strides, and their zips -/

theorem calls_nil {α : Type} {w : Nat} (d : Vector α w) : calls w d [] = [] := by
  simp [calls, fullWindows]

theorem calls_cons {α : Type} {w : Nat} (hw : 0 < w) (d : Vector α w) {l : List α}
    (h : w ≤ l.length) : calls w d l = windowAt l 0 w (by omega) :: calls w d (l.drop w) := by
  unfold calls
  rw [fullWindows_cons hw h, leftover_drop hw h, List.length_drop, List.cons_append,
    Nat.mod_eq_sub_mod h]

theorem calls_short {α : Type} {w : Nat} (d : Vector α w) {l : List α} (h0 : 0 < l.length)
    (h : l.length < w) : calls w d l = [padFront d l] := by
  unfold calls
  rw [fullWindows_short h, Nat.mod_eq_of_lt h, if_neg (by omega)]
  simp [leftover, Nat.div_eq_of_lt h]

/-- The calls after the first `j` are those of the list without its first `j` groups. -/
theorem calls_drop {α : Type} {w : Nat} (hw : 0 < w) (d : Vector α w) : ∀ (j : Nat) (l : List α),
    calls w d (l.drop (j * w)) = (calls w d l).drop j
  | 0, l => by simp
  | j + 1, l => by
    by_cases h : w ≤ l.length
    · rw [calls_cons hw d h, List.drop_succ_cons, ← calls_drop hw d j, List.drop_drop, Nat.succ_mul,
        Nat.add_comm]
    · rw [List.drop_of_length_le (by rw [Nat.succ_mul]; omega), calls_nil]
      symm
      by_cases h0 : 0 < l.length
      · rw [calls_short d h0 (by omega)]; simp
      · have e : l = [] := List.eq_nil_of_length_eq_zero (by omega)
        rw [e, calls_nil]; simp

section
variable {I α β σ : Type} {w w' : Nat} [SIMDSized I] [SIMDIterator I α w] [Unwind I α w]
  [LawfulUnwind I α w] [Packable α] [Packable β]
  {c : Cfg} {S : Nat → I} {l : List α} {d : Vector α w} {more : Nat → Prop}

omit [Unwind I α w] [LawfulUnwind I α w] [Packable α] in
theorem Driver.nextN_eq (h : Driver c S l d more) : ∀ (n p : Nat) (s : I), p ≤ l.length →
    nextN c n (S p) = ok s → s = S (p + n * w)
  | 0, p, s, _, e => by
    simp only [nextN, ok.injEq] at e
    rw [Nat.zero_mul]; exact e.symm
  | n + 1, p, s, hp, e => by
    by_cases hm : more p
    · obtain ⟨hle, hn⟩ := h.next_some p hm
      simp only [nextN, hn, ok_bind] at e
      rw [h.nextN_eq n (p + w) s hle e, Nat.succ_mul]
      congr 1; omega
    · simp [nextN, h.next_none p hp hm] at e

omit [Unwind I α w] [LawfulUnwind I α w] [Packable α] [Packable β] in
/-- A pass from any position at which `end` works. -/
theorem Driver.emits_from (h : Driver c S l d more) (hw : 0 < w) (p : Nat) (hp : p ≤ l.length)
    (hs : p = 0 ∨ p = l.length ∨ w < l.length) :
    ∃ n, Driver.count w (l.drop p) n ∧
      Emits c (S p) ((fullWindows w (l.drop p)).take n) (ok (tailFrom d (l.drop p) n, S l.length)) := by
  obtain ⟨n, hr, hm, hc⟩ := h.runs_from hw p hp
  obtain ⟨h1, h2, h3, -⟩ := Driver.count_cases hw hc
  rw [List.length_drop] at h2 h3
  refine ⟨n, hc, _, hr, ?_⟩
  simp only [ok_bind]
  rw [h.end_ _ (by omega) hm]
  · simp only [tailFrom, List.length_drop, List.drop_drop]
    by_cases hlt : p + n * w < l.length
    · rw [if_pos hlt, if_pos (by omega)]
      rw [show l.length - (p + n * w) = l.length - p - n * w by omega]
    · rw [if_neg hlt, if_neg (by omega), show p + n * w = l.length by omega]
  · intro hlt
    by_cases hn : n = 0
    · rw [hn, Nat.zero_mul, Nat.add_zero] at hlt ⊢
      omega
    · right
      have := Nat.le_mul_of_pos_left w (Nat.pos_of_ne_zero hn)
      omega

/-- The pass of a map over an iterator which walks over a list, if the closure panics at call
`k`. -/
theorem Driver.map_stops (h : Driver c S l d more) (st st' : σ)
    (f : FnMut σ (Vector α w) (Vector β w')) (us : List (Vector β w')) (k : Nat) (v : Vector α w)
    (hw : 0 < w) (hs : 0 < Packable.size β) (hvec : w * Packable.size α < c.usize)
    (hk : (calls w d l)[k]? = some v)
    (hf : callAll f st ((calls w d l).take k) = ok (us, st')) (hp : f st' v = panic) :
    StopsAt c (simdMap (S 0) st f) us ⟨S (min ((k + 1) * w) l.length), st', f⟩ ∧ us.length = k ∧
      k ≤ l.length / w := by
  obtain ⟨n, hc, he⟩ := h.emits hw
  obtain ⟨h1, h2, h3, h4⟩ := Driver.count_cases hw hc
  have hl : ((fullWindows w l).take n).length = n := by
    rw [List.length_take, fullWindows_length]; omega
  have hcalls := withTail_tailFrom hw d l hc
  rw [← hcalls] at hk hf
  obtain ⟨s, hst, hs2⟩ := simdMap_stops f he hs (by
    intro p m e
    have := Nat.mul_le_mul_right (Packable.size α) (tailFrom_some e)
    omega) st st' us k v hk hf hp
  have hkl : k < (withTail ((fullWindows w l).take n) (tailFrom d l n)).length := by
    rcases Nat.lt_or_ge k (withTail ((fullWindows w l).take n) (tailFrom d l n)).length with h | h
    · exact h
    · rw [List.getElem?_eq_none h] at hk; cases hk
  have hus : us.length = k := by
    rw [callAll_length f st _ hf, List.length_take]; omega
  have hss : s = S (min ((k + 1) * w) l.length) := by
    by_cases hkn : k < n
    · rw [hl, if_pos hkn] at hs2
      have := Nat.mul_le_mul_right w (show k + 1 ≤ n from hkn)
      rw [h.nextN_eq _ 0 s (Nat.zero_le _) hs2.1, Nat.min_eq_left (by omega), Nat.zero_add]
    · rw [hl, if_neg hkn] at hs2
      have := Nat.mul_le_mul_right w (show n ≤ k by omega)
      rw [hs2, Nat.min_eq_right (by rw [Nat.succ_mul]; omega)]
  have hkf : k ≤ n := by
    simp only [withTail, List.length_append, hl, List.length_map] at hkl
    have : (tailFrom d l n).toList.length ≤ 1 := by cases tailFrom d l n <;> simp
    omega
  rw [← hss]
  exact ⟨hst, hus, by omega⟩

/-- **C117**, any iterator which walks over a list (slice iterators and strides): if the closure
of a map panics at call `k`, `scalar_fill` panics, the buffer holds the results of the earlier
calls and is unchanged after them, and the iterator stands behind the vector of call `k`. -/
theorem C117_fill_driver (h : Driver c S l d more) (fuel : Nat) (st st' : σ)
    (f : FnMut σ (Vector α w) (Vector β w')) (us : List (Vector β w')) (k : Nat) (v : Vector α w)
    (buf : List β) (hw : 0 < w) (hs : 0 < Packable.size β) (hvec : w * Packable.size α < c.usize)
    (hfuel : l.length / w < fuel) (hbuf : k * w' ≤ buf.length) (hu : k * w' < c.usize)
    (hk : (calls w d l)[k]? = some v)
    (hf : callAll f st ((calls w d l).take k) = ok (us, st')) (hp : f st' v = panic) :
    scalarFillU c fuel (simdMap (S 0) st f, buf) =
      (panic, (⟨S (min ((k + 1) * w) l.length), st', f⟩, lanes us ++ buf.drop (k * w'))) := by
  obtain ⟨h1, h2, h3⟩ := h.map_stops st st' f us k v hw hs hvec hk hf hp
  rw [scalarFillU_stops h1 buf fuel (by omega) (by rw [h2]; exact hbuf) (by rw [h2]; exact hu),
    splice_zero, lanes_length, h2]

/-- **C117**, a map of a map: if the closure `f` of the inner map panics at call `k`, the buffer
holds the results of the outer closure `g` for the earlier calls, `g` keeps the state after them,
and the iterator stands behind the vector of call `k`. -/
theorem C117_fill_nested {τ δ : Type} {w'' : Nat} [Packable δ] (h : Driver c S l d more) (fuel : Nat)
    (st st' : σ) (f : FnMut σ (Vector α w) (Vector β w')) (us : List (Vector β w')) (k : Nat)
    (v : Vector α w) (gt gt' : τ) (g : FnMut τ (Vector β w') (Vector δ w'')) (xs : List (Vector δ w''))
    (buf : List δ) (hw : 0 < w) (hs : 0 < Packable.size β) (hvec : w * Packable.size α < c.usize)
    (hfuel : l.length / w < fuel) (hbuf : k * w'' ≤ buf.length) (hu : k * w'' < c.usize)
    (hk : (calls w d l)[k]? = some v)
    (hf : callAll f st ((calls w d l).take k) = ok (us, st')) (hp : f st' v = panic)
    (hg : callAll g gt us = ok (xs, gt')) :
    scalarFillU c fuel (simdMap (simdMap (S 0) st f) gt g, buf) =
      (panic, (⟨⟨S (min ((k + 1) * w) l.length), st', f⟩, gt', g⟩, lanes xs ++ buf.drop (k * w''))) := by
  obtain ⟨h1, h2, h3⟩ := h.map_stops st st' f us k v hw hs hvec hk hf hp
  have hx : xs.length = k := by rw [callAll_length g gt us hg, h2]
  have := scalarFillU_stops (h1.map g gt gt' xs hg) buf fuel (by omega) (by rw [hx]; exact hbuf)
    (by rw [hx]; exact hu)
  rw [splice_zero, lanes_length, hx] at this
  exact this

omit [Unwind I α w] [LawfulUnwind I α w] in
/-- **C117**: after the panic of call `k` is caught, a second `scalar_fill` writes the results of
the calls after `k` to the start of its buffer. -/
theorem C117_resume_driver (h : Driver c S l d more) (fuel : Nat) (st' : σ)
    (f : FnMut σ (Vector α w) (Vector β w')) (k : Nat) (buf : List β)
    (hw : 0 < w) (hw' : 0 < w') (hs : 0 < Packable.size β)
    (hsize : w * Packable.size α = w' * Packable.size β) (hvec : w * Packable.size α < c.usize)
    (hlen' : (l.length / w + 1) * w' < c.usize) (hfuel : l.length / w < fuel)
    (hbuf : l.length / w * w' + w' ≤ buf.length) :
    scalarFill c fuel (simdMap (S (min ((k + 1) * w) l.length)) st' f) buf = (do
      let (outs, st2) ← callAll f st' ((calls w d l).drop (k + 1))
      let out := unpad ((w - l.length % w) % w * Packable.size α / Packable.size β) outs
      ok (⟨S l.length, st2, f⟩, out ++ buf.drop out.length)) := by
  have hle : min ((k + 1) * w) l.length ≤ l.length := Nat.min_le_right _ _
  obtain ⟨n, hc, he⟩ := h.emits_from hw _ hle (by
    by_cases hkw : (k + 1) * w < l.length
    · right; right
      rw [Nat.succ_mul] at hkw; omega
    · right; left; exact Nat.min_eq_right (by omega))
  have hcalls := withTail_tailFrom hw d _ hc
  have hpad := padOf_tailFrom hw d _ hc
  obtain ⟨h1, h2, h3, h4⟩ := Driver.count_cases hw hc
  have hdrop : l.drop (min ((k + 1) * w) l.length) = l.drop ((k + 1) * w) := by
    rcases Nat.le_total ((k + 1) * w) l.length with h | h
    · rw [Nat.min_eq_left h]
    · rw [Nat.min_eq_right h, List.drop_of_length_le (Nat.le_refl _), List.drop_of_length_le h]
  rw [hdrop] at hc he hcalls hpad h1 h2 h3 h4
  have hdl : (l.drop ((k + 1) * w)).length / w ≤ l.length / w :=
    Nat.div_le_div_right (by simp)
  have hl : ((fullWindows w (l.drop ((k + 1) * w))).take n).length = n := by
    rw [List.length_take, fullWindows_length]; omega
  have hn := Nat.mul_le_mul_right w' (show n ≤ l.length / w by omega)
  rw [Nat.succ_mul] at hlen'
  rw [scalarFill_map f he hw' hs buf (by rw [hl]; omega) (by
      intro p m e
      have hm := tailFrom_some e
      have := Nat.mul_le_mul_right (Packable.size α) hm
      refine ⟨by omega, ?_, by rw [hl]; exact Nat.le_add_right_of_le (by omega)⟩
      exact Nat.div_le_of_le_mul (by rw [Nat.mul_comm (Packable.size β)]; omega))
    (by rw [hl, Nat.succ_mul]; omega) fuel (by omega) st', hcalls, calls_drop hw d (k + 1) l, hpad]
  by_cases hkw : (k + 1) * w ≤ l.length
  · have : (l.drop ((k + 1) * w)).length % w = l.length % w := by
      rw [List.length_drop, Nat.mul_comm, Nat.sub_mul_mod (by rw [Nat.mul_comm]; exact hkw)]
    rw [this]
    congr 1; funext p
    rw [splice_zero]
  · have e : (calls w d l).drop (k + 1) = [] := by
      rw [← calls_drop hw, List.drop_of_length_le (by omega), calls_nil]
    rw [e]
    simp [callAll, unpad, lanes, splice]

omit [Packable α] in
/-- **C117**, `simd_do_each`: the iterator stands behind the vector of the call which panicked. -/
theorem C117_do_each_driver (h : Driver c S l d more) (fuel : Nat) (st st' : σ)
    (f : FnMut σ (Vector α w) Unit) (us : List Unit) (k : Nat) (v : Vector α w)
    (hw : 0 < w) (hfuel : l.length / w < fuel) (hk : (calls w d l)[k]? = some v)
    (hf : callAll f st ((calls w d l).take k) = ok (us, st')) (hp : f st' v = panic) :
    simdDoEachU c fuel st f (S 0) = (panic, S (min ((k + 1) * w) l.length)) := by
  obtain ⟨n, hr, hm, hc⟩ := h.runs_from hw 0 (Nat.zero_le _)
  simp only [List.drop_zero, Nat.zero_add] at hr hm hc
  obtain ⟨h1, h2, h3, -⟩ := Driver.count_cases hw hc
  have hcalls := withTail_tailFrom hw d l hc
  have hl : ((fullWindows w l).take n).length = n := by
    rw [List.length_take, fullWindows_length]; omega
  have he : SIMDIterator.end_ c (S (n * w)) = ok (tailFrom d l n, S l.length) := by
    rw [h.end_ _ h2 hm]
    · simp only [tailFrom]
      split
      · rfl
      · rw [show n * w = l.length by omega]
    · intro hlt
      by_cases hn : n = 0
      · left; rw [hn, Nat.zero_mul]
      · right
        have := Nat.le_mul_of_pos_left w (Nat.pos_of_ne_zero hn)
        omega
  have loop : ∀ (it it' : I) (vs : List (Vector α w)), Runs c it vs (ok it') → ∀ (fuel k : Nat) (st : σ)
      (us : List Unit), vs.length < fuel →
      (∀ v, vs[k]? = some v → callAll f st (vs.take k) = ok (us, st') → f st' v = panic →
        ∃ s, doEachLoopU c f fuel st it = (panic, s) ∧ nextN c (k + 1) it = ok s) ∧
      (∀ st2, callAll f st vs = ok (us, st2) → doEachLoopU c f fuel st it = (ok st2, it')) := by
    intro it it' vs hr
    generalize hi : ok it' = ri at hr
    induction hr with
    | @done it it1 hn =>
      cases hi
      intro fuel k st us hf
      obtain ⟨g, rfl⟩ : ∃ g, fuel = g + 1 := ⟨fuel - 1, by omega⟩
      refine ⟨fun v hv => by simp at hv, fun st2 h2 => ?_⟩
      simp only [callAll, ok.injEq, Prod.mk.injEq] at h2
      rw [← h2.2, doEachLoopU]
      exact bind_ok_apply (nextU_of_next hn)
    | @fail it r hn hx =>
      cases r with
      | ok a => exact absurd rfl (hx a)
      | _ => cases hi
    | @step it it1 v1 vs r hn hr ih =>
      intro fuel k st us hf
      obtain ⟨g, rfl⟩ : ∃ g, fuel = g + 1 := ⟨fuel - 1, by omega⟩
      simp only [List.length_cons] at hf
      have e1 : ∀ st1, f st v1 = ok ((), st1) →
          doEachLoopU c f (g + 1) st it = doEachLoopU c f g st1 it1 := by
        intro st1 h
        rw [doEachLoopU]
        refine (bind_ok_apply (nextU_of_next hn)).trans ?_
        exact bind_ok_apply (x := MutM.lift (f st v1)) (by rw [h]; rfl)
      constructor
      · intro v hv hc hp
        cases k with
        | zero =>
          simp only [List.getElem?_cons_zero, Option.some.injEq] at hv
          subst hv
          simp only [List.take_zero, callAll, ok.injEq, Prod.mk.injEq] at hc
          obtain ⟨-, rfl⟩ := hc
          refine ⟨it1, ?_, by simp [nextN, hn]⟩
          rw [doEachLoopU]
          refine (bind_ok_apply (nextU_of_next hn)).trans ?_
          exact bind_panic_apply (x := MutM.lift (f st v1)) (by rw [hp]; rfl)
        | succ k =>
          simp only [List.getElem?_cons_succ, List.take_succ_cons, callAll] at hv hc
          cases hv1 : f st v1 with
          | ok q =>
            obtain ⟨u, st1⟩ := q
            rw [hv1, ok_bind] at hc
            cases hc2 : callAll f st1 (vs.take k) with
            | ok q2 =>
              obtain ⟨us2, st2⟩ := q2
              simp only [hc2, ok_bind, ok.injEq, Prod.mk.injEq] at hc
              obtain ⟨-, rfl⟩ := hc
              obtain ⟨s, hs1, hs2⟩ := (ih hi g k st1 us2 (by omega)).1 v hv hc2 hp
              exact ⟨s, (e1 st1 hv1).trans hs1, by simpa [nextN, hn] using hs2⟩
            | _ => simp [hc2] at hc
          | _ => simp [hv1] at hc
      · intro st2 hc
        simp only [callAll] at hc
        cases hv1 : f st v1 with
        | ok q =>
          obtain ⟨u, st1⟩ := q
          rw [hv1, ok_bind] at hc
          cases hc2 : callAll f st1 vs with
          | ok q2 =>
            obtain ⟨us2, st3⟩ := q2
            simp only [hc2, ok_bind, ok.injEq, Prod.mk.injEq] at hc
            obtain ⟨-, rfl⟩ := hc
            exact (e1 st1 hv1).trans ((ih hi g 0 st1 us2 (by omega)).2 _ hc2)
          | _ => simp [hc2] at hc
        | _ => simp [hv1] at hc
  rw [← hcalls] at hk hf
  unfold simdDoEachU
  by_cases hkn : k < n
  · have e : (withTail ((fullWindows w l).take n) (tailFrom d l n)).take k =
        ((fullWindows w l).take n).take k := by
      rw [withTail, List.take_append_of_le_length (by omega)]
    rw [withTail, List.getElem?_append_left (by omega)] at hk
    rw [e] at hf
    obtain ⟨s, hs1, hs2⟩ := (loop _ _ _ hr fuel k st us (by omega)).1 v hk hf hp
    have := Nat.mul_le_mul_right w (show k + 1 ≤ n from hkn)
    rw [bind_panic_apply hs1, h.nextN_eq _ 0 s (Nat.zero_le _) hs2, Nat.min_eq_left (by omega), Nat.zero_add]
  · have hkl : k < (withTail ((fullWindows w l).take n) (tailFrom d l n)).length := by
      rcases Nat.lt_or_ge k (withTail ((fullWindows w l).take n) (tailFrom d l n)).length with h | h
      · exact h
      · rw [List.getElem?_eq_none h] at hk; cases hk
    cases ht : tailFrom d l n with
    | none => simp [withTail, hl, ht] at hkl; omega
    | some q =>
      obtain ⟨p, m⟩ := q
      simp only [withTail, List.length_append, hl, ht, Option.toList_some, List.map_cons, List.map_nil,
        List.length_cons, List.length_nil] at hkl
      have hkn2 : k = n := by omega
      subst hkn2
      simp only [withTail, ht, Option.toList_some, List.map_cons, List.map_nil] at hk hf
      rw [List.getElem?_append_right (by omega), hl, Nat.sub_self] at hk
      simp only [List.getElem?_cons_zero, Option.some.injEq] at hk
      subst hk
      rw [List.take_append_of_le_length (by omega), List.take_of_length_le (by omega)] at hf
      have e1 := (loop _ _ _ hr fuel 0 st us (by omega)).2 _ hf
      rw [bind_ok_apply e1]
      rw [ht] at he
      refine (bind_ok_apply (endU_of_end he)).trans ?_
      refine (bind_panic_apply (x := MutM.lift (f st' p)) (s' := S l.length) (by rw [hp]; rfl)).trans ?_
      rw [Nat.min_eq_right (by rw [Nat.succ_mul]; omega)]

end

section
variable {α β σ : Type} {w w' : Nat} [Packable α] [Packable β]

/-- **C117** for slices: the map over a slice panics at call `k`. -/
theorem C117_fill_panic (c : Cfg) (fuel : Nat) (data : List α) (d : Vector α w) (st st' : σ)
    (f : FnMut σ (Vector α w) (Vector β w')) (us : List (Vector β w')) (k : Nat) (v : Vector α w)
    (buf : List β) (hw : 0 < w) (hs : 0 < Packable.size β) (hlen : data.length + w < c.usize)
    (hvec : w * Packable.size α < c.usize)
    (hfuel : data.length / w < fuel) (hbuf : k * w' ≤ buf.length) (hu : k * w' < c.usize)
    (hk : (calls w d data)[k]? = some v)
    (hf : callAll f st ((calls w d data).take k) = ok (us, st')) (hp : f st' v = panic) :
    scalarFillU c fuel (simdMap (simdIter data d) st f, buf) =
      (panic, (⟨⟨min ((k + 1) * w) data.length, ⟨data⟩, d⟩, st', f⟩, lanes us ++ buf.drop (k * w'))) :=
  C117_fill_driver (simdIter_driver (represents_slice c data) d hw hlen) fuel st st' f us k v buf hw
    hs hvec hfuel hbuf hu hk hf hp

/-- **C117** for slices: filling again after the panic. -/
theorem C117_resume (c : Cfg) (fuel : Nat) (data : List α) (d : Vector α w) (st' : σ)
    (f : FnMut σ (Vector α w) (Vector β w')) (k : Nat) (buf : List β)
    (hw : 0 < w) (hw' : 0 < w') (hs : 0 < Packable.size β) (hlen : data.length + w < c.usize)
    (hsize : w * Packable.size α = w' * Packable.size β) (hvec : w * Packable.size α < c.usize)
    (hlen' : (data.length / w + 1) * w' < c.usize) (hfuel : data.length / w < fuel)
    (hbuf : data.length / w * w' + w' ≤ buf.length) :
    scalarFill c fuel (⟨⟨min ((k + 1) * w) data.length, ⟨data⟩, d⟩, st', f⟩ :
        SIMDMap (SIMDIter (Slice α w) α w) σ α w β w') buf = (do
      let (outs, st2) ← callAll f st' ((calls w d data).drop (k + 1))
      let out := unpad ((w - data.length % w) % w * Packable.size α / Packable.size β) outs
      ok (⟨⟨data.length, ⟨data⟩, d⟩, st2, f⟩, out ++ buf.drop out.length)) :=
  C117_resume_driver (simdIter_driver (represents_slice c data) d hw hlen) fuel st' f k buf hw hw' hs
    hsize hvec hlen' hfuel hbuf

omit [Packable α] in
/-- **C117** for slices, `simd_do_each`. -/
theorem C117_do_each_panic (c : Cfg) (fuel : Nat) (data : List α) (d : Vector α w) (st st' : σ)
    (f : FnMut σ (Vector α w) Unit) (us : List Unit) (k : Nat) (v : Vector α w)
    (hw : 0 < w) (hlen : data.length + w < c.usize) (hfuel : data.length / w < fuel)
    (hk : (calls w d data)[k]? = some v)
    (hf : callAll f st ((calls w d data).take k) = ok (us, st')) (hp : f st' v = panic) :
    simdDoEachU c fuel st f (simdIter data d) =
      (panic, ⟨min ((k + 1) * w) data.length, ⟨data⟩, d⟩) :=
  C117_do_each_driver (simdIter_driver (represents_slice c data) d hw hlen) fuel st st' f us k v hw
    hfuel hk hf hp

/-- **C117** for strided iterators. -/
theorem C117_fill_panic_stride (c : Cfg) (fuel : Nat) (l : List α) {s j : Nat} (hj : j < s)
    (d : Vector α w) (st st' : σ) (f : FnMut σ (Vector α w) (Vector β w')) (us : List (Vector β w'))
    (k : Nat) (v : Vector α w) (buf : List β) (hw : 0 < w) (hs : 0 < Packable.size β)
    (hlen : l.length + s * (w + 1) < c.usize) (hvec : w * Packable.size α < c.usize)
    (hfuel : l.length / s / w < fuel) (hbuf : k * w' ≤ buf.length) (hu : k * w' < c.usize)
    (hk : (calls w d (strided s j l hj))[k]? = some v)
    (hf : callAll f st ((calls w d (strided s j l hj)).take k) = ok (us, st')) (hp : f st' v = panic) :
    scalarFillU c fuel (simdMap (strideAt (⟨l⟩ : Slice α w) s j d) st f, buf) =
      (panic, (⟨⟨⟨l⟩, j + s * min ((k + 1) * w) (l.length / s), j, s, d⟩, st', f⟩,
        lanes us ++ buf.drop (k * w'))) := by
  obtain ⟨S, more, hd, h0, hS⟩ := strideAt_driver c l hj d hw hlen
  have := C117_fill_driver hd fuel st st' f us k v buf hw hs hvec (by rw [strided_length]; exact hfuel)
    hbuf hu hk hf hp
  rw [h0, hS, strided_length] at this
  exact this

end

section
variable {I R α γ δ β σ : Type} {w w' : Nat} [SIMDSized I] [SIMDIterator I α w] [Unwind I α w]
  [LawfulUnwind I α w] [Packable α] [Packable β]
  [ZipRest R γ] [LawfulRest R γ δ w] {c : Cfg} {S : Nat → I} {r : R} {rows : List (α × δ)}
  {dv : Vector (α × δ) w} {more : Nat → Prop}

/-- **C117** for zips of any arity: a panic at call `k` of the closure of a map over a zip. -/
theorem C117_fill_panic_zip (hd : Driver c S (rows.map Prod.fst) (dv.map Prod.fst) more) (hw : 0 < w)
    (hr : LawfulRest.Rep c r (rows.map Prod.snd) (dv.map Prod.snd))
    (hu : rows.length + w < c.usize) (fuel : Nat) (st st' : σ)
    (f : FnMut σ (Vector α w × γ) (Vector β w')) (us : List (Vector β w')) (k : Nat)
    (v : Vector α w × γ) (buf : List β) (hs : 0 < Packable.size β)
    (hvec : w * Packable.size α < c.usize) (hfuel : rows.length / w < fuel)
    (hbuf : k * w' ≤ buf.length) (hu' : k * w' < c.usize)
    (hk : ((calls w dv rows).map (packRow R))[k]? = some v)
    (hf : callAll f st (((calls w dv rows).map (packRow R)).take k) = ok (us, st'))
    (hp : f st' v = panic) :
    scalarFillU c fuel (zsimdMap (⟨S 0, r⟩ : Zip I R) st f, buf) =
      (panic, (⟨⟨S (min ((k + 1) * w) rows.length), r⟩, st', f⟩, lanes us ++ buf.drop (k * w'))) := by
  obtain ⟨n, hc, he⟩ := zip_emits hd hw hr hu
  obtain ⟨h1, h2, h3, h4⟩ := Driver.count_cases hw hc
  have hl : (((fullWindows w rows).take n).map (packRow R)).length = n := by
    rw [List.length_map, List.length_take, fullWindows_length]; omega
  rw [← zwithTail_tailFrom hw hc] at hk hf
  obtain ⟨s, hst, hs2⟩ := zipMap_stops f he hs (by
    intro p m e
    simp only [Option.map_eq_some_iff] at e
    obtain ⟨q, hq, e⟩ := e
    have hm := tailFrom_some (p := q.1) (n := q.2) hq
    simp only [Prod.mk.injEq] at e
    rw [← e.2]
    have := Nat.mul_le_mul_right (Packable.size α) hm
    show q.2 * Packable.size α < c.usize
    omega) st st' us k v hk hf hp
  have hkl : k < (zwithTail (((fullWindows w rows).take n).map (packRow R))
      ((tailFrom dv rows n).map fun q => (packRow R q.1, q.2))).length := by
    rcases Nat.lt_or_ge k (zwithTail (((fullWindows w rows).take n).map (packRow R))
      ((tailFrom dv rows n).map fun q => (packRow R q.1, q.2))).length with h | h
    · exact h
    · rw [List.getElem?_eq_none h] at hk; cases hk
  have hus : us.length = k := by
    rw [callAll_length f st _ hf, List.length_take]; omega
  have hnext : ∀ (j p : Nat) (z : Zip I R), p ≤ rows.length →
      znextN c j (⟨S p, r⟩ : Zip I R) = ok z → z = ⟨S (p + j * w), r⟩ := by
    intro j
    induction j with
    | zero =>
      intro p z _ e
      simp only [znextN, ok.injEq] at e
      rw [Nat.zero_mul]; exact e.symm
    | succ j ih =>
      intro p z hp e
      by_cases hm : more p
      · obtain ⟨hle, hn⟩ := (zip_next hd hr (by omega) p).1 hm
        simp only [znextN, hn, ok_bind] at e
        rw [ih (p + w) z hle e, Nat.succ_mul, show p + w + j * w = p + (j * w + w) by omega]
      · simp [znextN, (zip_next hd hr (by omega) p).2 hm hp] at e
  have hss : s = ⟨S (min ((k + 1) * w) rows.length), r⟩ := by
    by_cases hkn : k < n
    · rw [hl, if_pos hkn] at hs2
      have := Nat.mul_le_mul_right w (show k + 1 ≤ n from hkn)
      rw [hnext _ 0 s (Nat.zero_le _) hs2.1, Nat.min_eq_left (by omega), Nat.zero_add]
    · rw [hl, if_neg hkn] at hs2
      have := Nat.mul_le_mul_right w (show n ≤ k by omega)
      rw [hs2, Nat.min_eq_right (by rw [Nat.succ_mul]; omega)]
  have hkf : k ≤ n := by
    simp only [zwithTail, List.length_append, hl, List.length_map] at hkl
    have : ((tailFrom dv rows n).map fun q => (packRow R q.1, q.2)).toList.length ≤ 1 := by
      cases tailFrom dv rows n <;> simp
    omega
  rw [← hss, zsimdMap, scalarFillU_stops hst buf fuel (by omega) (by rw [hus]; exact hbuf)
    (by rw [hus]; exact hu'), splice_zero, lanes_length, hus]

end

/-! ### A panic in the first iterator of a zip -/

section
variable {Z γ : Type} [UnwindZ Z γ]

/-- `StopsAt` for zips. -/
inductive ZStopsAt (c : Cfg) : Z → List γ → Z → Prop where
  | next {z s : Z} : UnwindZ.nextU c z = (panic, s) → ZStopsAt c z [] s
  | tail {z z1 s : Z} : UnwindZ.nextU c z = (ok none, z1) → UnwindZ.endU c z1 = (panic, s) →
      ZStopsAt c z [] s
  | step {z z1 s : Z} {v : γ} {vs : List γ} :
      UnwindZ.nextU c z = (ok (some v), z1) → ZStopsAt c z1 vs s → ZStopsAt c z (v :: vs) s

/-- A map over a zip which panics. -/
theorem ZStopsAt.map [SIMDZippedIterator Z γ] {τ β : Type} {w' : Nat} {c : Cfg} {z s : Z} {vs : List γ}
    (h : ZStopsAt c z vs s) [Packable β] (g : FnMut τ γ (Vector β w')) (st st' : τ)
    (us : List (Vector β w')) (hg : callAll g st vs = ok (us, st')) :
    StopsAt c (⟨z, st, g⟩ : SIMDZipMap Z τ γ β w') us ⟨s, st', g⟩ := by
  induction h generalizing st us with
  | @next z s h =>
    simp only [callAll, ok.injEq, Prod.mk.injEq] at hg
    obtain ⟨rfl, rfl⟩ := hg
    refine StopsAt.next (bind_panic_apply ?_)
    unfold SIMDZipMap.onIter
    rw [h]
  | @tail z z1 s h h2 =>
    simp only [callAll, ok.injEq, Prod.mk.injEq] at hg
    obtain ⟨rfl, rfl⟩ := hg
    refine StopsAt.tail (it1 := ⟨z1, st, g⟩) ?_ ?_
    · exact bind_ok_apply (s' := (⟨z1, st, g⟩ : SIMDZipMap Z τ γ β w')) (a := none)
        (by unfold SIMDZipMap.onIter; rw [h])
    · refine bind_panic_apply ?_
      unfold SIMDZipMap.onIter
      rw [h2]
  | @step z z1 s v vs h h2 ih =>
    simp only [callAll] at hg
    cases hv : g st v with
    | ok q =>
      obtain ⟨u, st1⟩ := q
      rw [hv, ok_bind] at hg
      cases hc : callAll g st1 vs with
      | ok q2 =>
        obtain ⟨us2, st2⟩ := q2
        simp only [hc, ok_bind, ok.injEq, Prod.mk.injEq] at hg
        obtain ⟨rfl, rfl⟩ := hg
        refine StopsAt.step (it1 := ⟨z1, st1, g⟩) ?_ (ih st1 us2 hc)
        refine (bind_ok_apply (s' := (⟨z1, st, g⟩ : SIMDZipMap Z τ γ β w')) (a := some v)
          (by unfold SIMDZipMap.onIter; rw [h])).trans ?_
        exact bind_ok_apply (s' := (⟨z1, st1, g⟩ : SIMDZipMap Z τ γ β w')) (a := u)
          (by simp [SIMDZipMap.callU, MutM.call, hv])
      | _ => simp [hc] at hg
    | _ => simp [hv] at hg

end

section
variable {I R α γ β σ : Type} {w w' : Nat} [SIMDSized I] [SIMDIterator I α w] [Unwind I α w]
  [LawfulUnwind I α w] [Packable α] [Packable β] [ZipRest R γ]
  {c : Cfg} {S : Nat → I} {l : List α} {d : Vector α w} {more : Nat → Prop}

/-- The pass of a zip whose first iterator is a map, if the closure of that map panics at call
`k`; `rs` are the vectors of the other iterators for the calls before. -/
theorem zipFirst_stops (h : Driver c S l d more) (hw : 0 < w) (hs : 0 < Packable.size β)
    (hvec : w * Packable.size α < c.usize) (r : R) (f : FnMut σ (Vector α w) (Vector β w')) (st' : σ)
    (v : Vector α w) (hp : f st' v = panic) : ∀ (k p : Nat) (st : σ) (us : List (Vector β w')) (rs : List γ),
    p ≤ l.length → (p = 0 ∨ w < l.length) → (calls w d (l.drop p))[k]? = some v →
    callAll f st ((calls w d (l.drop p)).take k) = ok (us, st') → rs.length = k →
    (∀ j (hj : j < rs.length), ZipRest.nextAll c r (p + j * w) = ok rs[j]) →
    ZStopsAt c (⟨⟨S p, st, f⟩, r⟩ : Zip (SIMDMap I σ α w β w') R) (us.zip rs)
      ⟨⟨S (min (p + (k + 1) * w) l.length), st', f⟩, r⟩ := by
  intro k
  induction k with
  | zero =>
    intro p st us rs hpl hp0 hk hf hrl hr
    simp only [List.take_zero, callAll, ok.injEq, Prod.mk.injEq] at hf
    obtain ⟨rfl, rfl⟩ := hf
    have hpos := h.pos p hpl
    rw [List.zip_nil_left]
    by_cases hm : more p
    · obtain ⟨hle, hn⟩ := h.next_some p hm
      have hv : v = windowAt l p w hle := by
        rw [calls_cons hw d (by rw [List.length_drop]; omega), List.getElem?_cons_zero,
          Option.some.injEq] at hk
        rw [← hk]
        ext i hi
        simp [windowAt]
      have hn' := nextU_of_next hn
      rw [← hv] at hn'
      refine ZStopsAt.next ?_
      rw [show min (p + (0 + 1) * w) l.length = p + w by omega]
      refine (bind_ok_apply (x := MutM.get) rfl).trans ?_
      refine (bind_ok_apply (x := MutM.lift _) (a := p) (by
        show (SIMDIterable.scalarPos c (S p), _) = _
        rw [hpos])).trans ?_
      refine bind_panic_apply ?_
      have : Unwind.nextU c (⟨S p, st, f⟩ : SIMDMap I σ α w β w') = (panic, ⟨S (p + w), st, f⟩) := by
        refine (bind_ok_apply (s' := (⟨S (p + w), st, f⟩ : SIMDMap I σ α w β w')) (a := some v)
          (by unfold SIMDMap.onIter; rw [hn'])).trans ?_
        refine bind_panic_apply ?_
        simp [SIMDMap.callU, MutM.call, hp]
      unfold Zip.onFirst
      rw [this]
    · have hfew := h.few p hm
      have hlt : p < l.length := by
        rcases Nat.lt_or_ge p l.length with h | h
        · exact h
        · rw [List.drop_of_length_le h, calls_nil] at hk; simp at hk
      have hn' := nextU_of_next (h.next_none p hpl hm)
      have he := h.end_ p hpl hm (fun _ => hp0)
      rw [if_pos hlt] at he
      have hv : v = padFront d (l.drop p) := by
        by_cases hf : w ≤ (l.drop p).length
        · have hl : (l.drop p).length = w := by rw [List.length_drop] at hf ⊢; omega
          rw [calls_cons hw d hf, List.getElem?_cons_zero, Option.some.injEq] at hk
          rw [← hk, padFront_full d _ hl]
        · rw [calls_short d (by rw [List.length_drop]; omega) (by omega), List.getElem?_cons_zero,
            Option.some.injEq] at hk
          exact hk.symm
      rw [← hv] at he
      have he' := endU_of_end he
      rw [show min (p + (0 + 1) * w) l.length = l.length by omega]
      have hmul : (w - (l.length - p)) * Packable.size α < c.usize :=
        Nat.lt_of_le_of_lt (Nat.mul_le_mul_right _ (Nat.sub_le _ _)) hvec
      refine ZStopsAt.tail (z1 := ⟨⟨S p, st, f⟩, r⟩) ?_ ?_
      · refine (bind_ok_apply (x := MutM.get) rfl).trans ?_
        refine (bind_ok_apply (x := MutM.lift _) (a := p) (by
          show (SIMDIterable.scalarPos c (S p), _) = _
          rw [hpos])).trans ?_
        refine bind_ok_apply (a := none) ?_
        have : Unwind.nextU c (⟨S p, st, f⟩ : SIMDMap I σ α w β w') = (ok none, ⟨S p, st, f⟩) :=
          bind_ok_apply (s' := (⟨S p, st, f⟩ : SIMDMap I σ α w β w')) (a := none)
            (by unfold SIMDMap.onIter; rw [hn'])
        unfold Zip.onFirst
        rw [this]
      · refine (bind_ok_apply (x := MutM.get) rfl).trans ?_
        refine (bind_ok_apply (x := MutM.lift _) (a := p) (by
          show (SIMDIterable.scalarPos c (S p), _) = _
          rw [hpos])).trans ?_
        refine bind_panic_apply ?_
        have : Unwind.endU c (⟨S p, st, f⟩ : SIMDMap I σ α w β w') = (Res.panic, ⟨S l.length, st, f⟩) := by
          refine (bind_ok_apply (s' := (⟨S l.length, st, f⟩ : SIMDMap I σ α w β w'))
            (a := some (v, w - (l.length - p))) (by unfold SIMDMap.onIter; rw [he'])).trans ?_
          refine (bind_ok_apply (s' := (⟨S l.length, st, f⟩ : SIMDMap I σ α w β w'))
            (a := (w - (l.length - p)) * Packable.size α / Packable.size β)
            (by rw [umul_ok hmul, ok_bind, udiv_ok hs]; rfl)).trans ?_
          refine bind_panic_apply ?_
          simp [SIMDMap.callU, MutM.call, hp]
        unfold Zip.onFirst
        rw [this]
  | succ k ih =>
    intro p st us rs hpl hp0 hk hf hrl hr
    have hpos := h.pos p hpl
    by_cases hm : more p
    · obtain ⟨hle, hn⟩ := h.next_some p hm
      have e2 : calls w d (l.drop p) = windowAt l p w hle :: calls w d (l.drop (p + w)) := by
        rw [calls_cons hw d (by rw [List.length_drop]; omega), List.drop_drop]
        congr 1
        ext i hi
        simp [windowAt]
      rw [e2] at hk hf
      simp only [List.getElem?_cons_succ, List.take_succ_cons, callAll] at hk hf
      have hn' := nextU_of_next hn
      generalize windowAt l p w hle = v1 at hn' hf
      cases hv : f st v1 with
      | ok q =>
        obtain ⟨u, st1⟩ := q
        rw [hv, ok_bind] at hf
        cases hc : callAll f st1 ((calls w d (l.drop (p + w))).take k) with
        | ok q2 =>
          obtain ⟨us2, st2⟩ := q2
          simp only [hc, ok_bind, ok.injEq, Prod.mk.injEq] at hf
          obtain ⟨rfl, rfl⟩ := hf
          obtain ⟨r1, rs, rfl⟩ : ∃ r1 rs', rs = r1 :: rs' := by
            cases rs with
            | nil => simp at hrl
            | cons a b => exact ⟨a, b, rfl⟩
          have hr0 := hr 0 (by simp)
          simp only [Nat.zero_mul, Nat.add_zero, List.getElem_cons_zero] at hr0
          have hlt : w < l.length := by
            rcases hp0 with rfl | h
            · rcases Nat.lt_or_ge w l.length with h | h
              · exact h
              · rw [Nat.zero_add, List.drop_of_length_le h, calls_nil] at hk; simp at hk
            · exact h
          have := ih (p + w) st1 us2 rs hle (.inr hlt) hk hc (by simpa using hrl) (by
            intro j hj
            have := hr (j + 1) (by simpa using hj)
            rw [Nat.succ_mul, show p + (j * w + w) = p + w + j * w by omega] at this
            simpa using this)
          rw [show p + w + (k + 1) * w = p + (k + 1 + 1) * w by
            rw [Nat.succ_mul (k + 1)]; omega] at this
          refine ZStopsAt.step (z1 := ⟨⟨S (p + w), st1, f⟩, r⟩) ?_ this
          refine (bind_ok_apply (x := MutM.get) rfl).trans ?_
          refine (bind_ok_apply (x := MutM.lift _) (a := p) (by
            show (SIMDIterable.scalarPos c (S p), _) = _
            rw [hpos])).trans ?_
          have hx : Unwind.nextU c (⟨S p, st, f⟩ : SIMDMap I σ α w β w') =
              (ok (some u), ⟨S (p + w), st1, f⟩) := by
            refine (bind_ok_apply (s' := (⟨S (p + w), st, f⟩ : SIMDMap I σ α w β w')) (a := some v1)
              (by unfold SIMDMap.onIter; rw [hn'])).trans ?_
            exact bind_ok_apply (s' := (⟨S (p + w), st1, f⟩ : SIMDMap I σ α w β w')) (a := u)
              (by simp [SIMDMap.callU, MutM.call, hv])
          refine (bind_ok_apply (s' := (⟨⟨S (p + w), st1, f⟩, r⟩ : Zip (SIMDMap I σ α w β w') R))
            (a := some u) (by unfold Zip.onFirst; rw [hx])).trans ?_
          refine (bind_ok_apply (x := MutM.get) rfl).trans ?_
          exact bind_ok_apply (x := MutM.lift _) (a := r1) (by
            show (ZipRest.nextAll c r p, _) = _
            rw [hr0])
        | _ => simp [hc] at hf
      | _ => simp [hv] at hf
    · have hfew := h.few p hm
      have hlen : (calls w d (l.drop p)).length ≤ 1 := by
        have hd : (l.drop p).length ≤ w := by rw [List.length_drop]; omega
        by_cases h0 : (l.drop p).length = 0
        · rw [List.eq_nil_of_length_eq_zero h0, calls_nil]; simp
        · by_cases hf : (l.drop p).length < w
          · rw [calls_short d (by omega) hf]; simp
          · rw [calls_cons hw d (by omega), List.drop_of_length_le (l := l.drop p) (i := w) hd, calls_nil]
            simp
      rw [List.getElem?_eq_none (by omega)] at hk
      cases hk

/-- **C117**, a map of a zip whose first iterator is a map: if the closure `f` of that inner map
panics at call `k`, the buffer holds the results of the outer closure `g` for the earlier rows, `g`
keeps the state after them, the first iterator stands behind the vector of call `k`, and the other
iterators are as they were. -/
theorem C117_fill_zip_first {τ δ : Type} {w'' : Nat} [Packable δ] (h : Driver c S l d more) (fuel : Nat)
    (r : R) (st st' : σ) (f : FnMut σ (Vector α w) (Vector β w')) (us : List (Vector β w')) (rs : List γ)
    (k : Nat) (v : Vector α w) (gt gt' : τ) (g : FnMut τ (Vector β w' × γ) (Vector δ w''))
    (xs : List (Vector δ w'')) (buf : List δ) (hw : 0 < w) (hs : 0 < Packable.size β)
    (hvec : w * Packable.size α < c.usize)
    (hfuel : k < fuel) (hbuf : k * w'' ≤ buf.length) (hu : k * w'' < c.usize)
    (hk : (calls w d l)[k]? = some v)
    (hf : callAll f st ((calls w d l).take k) = ok (us, st')) (hp : f st' v = panic)
    (hrl : rs.length = k) (hr : ∀ j (hj : j < rs.length), ZipRest.nextAll c r (j * w) = ok rs[j])
    (hg : callAll g gt (us.zip rs) = ok (xs, gt')) :
    scalarFillU c fuel (zsimdMap (⟨simdMap (S 0) st f, r⟩ : Zip (SIMDMap I σ α w β w') R) gt g, buf) =
      (panic, (⟨⟨⟨S (min ((k + 1) * w) l.length), st', f⟩, r⟩, gt', g⟩,
        lanes xs ++ buf.drop (k * w''))) := by
  have h1 := zipFirst_stops h hw hs hvec r f st' v hp k 0 st us rs (Nat.zero_le _) (.inl rfl)
    (by simpa using hk) (by simpa using hf) hrl (by simpa using hr)
  have hul : us.length = k := by
    rw [callAll_length f st _ hf, List.length_take]
    have : k < (calls w d l).length := by
      rcases Nat.lt_or_ge k (calls w d l).length with h | h
      · exact h
      · rw [List.getElem?_eq_none h] at hk; cases hk
    omega
  have hx : xs.length = k := by
    rw [callAll_length g gt _ hg, List.length_zip, hul, hrl, Nat.min_self]
  have := scalarFillU_stops (h1.map g gt gt' xs hg) buf fuel (by omega) (by rw [hx]; exact hbuf)
    (by rw [hx]; exact hu)
  rw [splice_zero, lanes_length, hx, Nat.zero_add] at this
  exact this

end

/-- The closure panics at the second vector: the buffer holds the first result, and a second call
goes on with the third vector. -/
example :
    let f : FnMut Nat (Vector (BitVec 8) 2) (Vector (BitVec 8) 2) :=
      fun n v => if v = #v[3#8, 4] then panic else ok (v.map (· + 1#8), n + 1)
    let r := scalarFillU release64 9 (simdMap (simdIter (w := 2) [1#8, 2, 3, 4, 5] #v[0#8, 0]) 0 f,
      [9#8, 9, 9, 9, 9, 9])
    r.1 = panic ∧ r.2.2 = [2, 3, 9, 9, 9, 9] ∧ r.2.1.iter.position = 4 ∧
    (scalarFill release64 9 r.2.1 [9#8, 9, 9] >>= fun p => ok p.2) = ok [6, 9, 9] := by
  decide +kernel

/-- A map of a map, and a map of a zip with a map: the inner closure panics at the second vector. -/
example :
    let f : FnMut Nat (Vector (BitVec 8) 2) (Vector (BitVec 8) 2) :=
      fun n v => if v = #v[3#8, 4] then panic else ok (v.map (· + 1#8), n + 1)
    let g : FnMut Nat (Vector (BitVec 8) 2) (Vector (BitVec 8) 2) := fun n v => ok (v.map (· * 2#8), n + 5)
    let it := simdMap (simdIter (w := 2) [1#8, 2, 3, 4, 5] #v[0#8, 0]) 0 f
    let r := scalarFillU release64 9 (simdMap it 0 g, [9#8, 9, 9, 9, 9, 9])
    r.1 = panic ∧ r.2.2 = [4, 6, 9, 9, 9, 9] ∧ r.2.1.iter.iter.position = 4 ∧ r.2.1.st = 5 := by
  decide +kernel

end Faster
