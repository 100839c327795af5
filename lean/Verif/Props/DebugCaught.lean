import Verif.UnwindAll
import Verif.Props.UnwindMore
import Verif.Props.DebugBuilt
/-
C138: in debug builds there is no undefined behaviour either when panics are caught and the
iterators are used again.

`(Unwind.nextU c x).2` is the iterator after `next`, whether it returned or panicked
(`Verif/Unwind.lean`, `Verif/UnwindAll.lean`).
-/
namespace Faster
open Res SIMDSized SIMDIterable SIMDIterator MutM

/-! ### The model with places agrees with the one without -/

theorem obs_strideZipOnIter {I α : Type} {w : Nat} {r : Type} (x : MutM I r) (z : StrideZip I α w) :
    obs (StrideZip.onIter x) z = obs x z.iter >>= fun p => ok (p.1, { z with iter := p.2 }) := by
  unfold obs StrideZip.onIter
  rcases h : x z.iter with ⟨r, t⟩
  cases r <;> rfl

instance {I α : Type} {w : Nat} [SIMDSized I] [SIMDIterator I α w] [Packable α] [Unwind I α w]
    [LawfulUnwind I α w] : LawfulUnwindZ (StrideZip I α w) (Vector α w × Vector α w) where
  next_run c z := by
    simp only [UnwindZ.nextU, SIMDZippedIterator.next, StrideZip.next, obs_bind,
      obs_strideZipOnIter, LawfulUnwind.next_run, bind_assoc, ok_bind]
    congr 1; funext ⟨r, it⟩
    cases r with
    | none => rfl
    | some v =>
      simp only [obs_bind, obs_strideZipOnIter, LawfulUnwind.next_run, bind_assoc, ok_bind]
      congr 1; funext ⟨r, it⟩
      cases r with
      | none => rfl
      | some v => rfl
  end_run c z := by
    simp only [UnwindZ.endU, SIMDZippedIterator.end_, StrideZip.end_, obs_bind,
      obs_strideZipOnIter, LawfulUnwind.next_run, LawfulUnwind.end_run, bind_assoc, ok_bind, obs_get]
    congr 1; funext ⟨r, it⟩
    simp only []
    congr 1; funext ⟨e, it⟩
    simp only []
    generalize e.getD (dflt it, 0) = en
    obtain ⟨e, n⟩ := en
    cases r with
    | some v => simp only [obs_bind, obs_lift, bind_assoc, ok_bind, obs_pure]
    | none =>
      cases z.peek with
      | some v => simp only [obs_bind, obs_lift, bind_assoc, ok_bind, obs_pure, obs_modify]
      | none =>
        by_cases h : n > 0
        · simp only [if_pos h, obs_pure]
        · simp only [if_neg h, obs_pure]

section Adapter
variable {α : Type} {w : Nat}

theorem obs_adapterPut (c : Cfg) (o : Nat) (x : α) (a : SIMDAdapter α w) :
    obs (SIMDAdapter.putU c o x) a = Packed.replaceUnchecked c a.scratch o x >>= fun s =>
      ok ((), { a with scratch := s }) := by
  simp only [SIMDAdapter.putU, obs_modify, bind_assoc, ok_bind]

theorem obs_adapterNextLoop (c : Cfg) : ∀ (n o : Nat) (a : SIMDAdapter α w),
    obs (SIMDAdapter.nextLoopU c n o) a = SIMDAdapter.nextLoop c n o a >>= fun a => ok ((), a)
  | 0, _, _ => rfl
  | n + 1, o, a => by
    rcases a with ⟨l, s, d, p⟩
    cases l with
    | nil => rfl
    | cons x rest =>
      have e : obs (SIMDAdapter.nextLoopU c (n + 1) o) ⟨x :: rest, s, d, p⟩ =
          obs (SIMDAdapter.putU c o x >>= fun _ => SIMDAdapter.nextLoopU c n (o + 1))
            ⟨rest, s, d, p⟩ := rfl
      simp only [e, obs_bind, obs_adapterPut, SIMDAdapter.nextLoop, bind_assoc, ok_bind]
      congr 1; funext s
      exact obs_adapterNextLoop c n (o + 1) _

theorem obs_adapterEndLoop (c : Cfg) : ∀ (n : Nat) (o : Nat) (a : SIMDAdapter α w),
    n = a.iter.length → obs (SIMDAdapter.endLoopU c n o) a =
      SIMDAdapter.endLoop c a.iter o a.scratch >>= fun r =>
        ok (r.2, { a with iter := [], scratch := r.1 }) := by
  intro n
  induction n with
  | zero =>
    intro o a h
    rcases a with ⟨l, s, d, p⟩
    cases l with
    | nil => rfl
    | cons x rest => cases h
  | succ n ih =>
    intro o a h
    rcases a with ⟨l, s, d, p⟩
    cases l with
    | nil => cases h
    | cons x rest =>
      have e : obs (SIMDAdapter.endLoopU c (n + 1) o) ⟨x :: rest, s, d, p⟩ =
          obs (SIMDAdapter.putU c o x >>= fun _ => MutM.lift (usub c o 1) >>= fun o =>
            SIMDAdapter.endLoopU c n o) ⟨rest, s, d, p⟩ := rfl
      simp only [e, obs_bind, obs_adapterPut, obs_lift, SIMDAdapter.endLoop, bind_assoc, ok_bind]
      congr 1; funext s
      congr 1; funext o
      exact ih o ⟨rest, s, d, p⟩ (Nat.succ.inj h)

instance : LawfulUnwind (SIMDAdapter α w) α w where
  next_run c a := by
    simp only [Unwind.nextU, SIMDIterable.next, SIMDAdapter.next, obs_bind, obs_get, obs_lift,
      bind_assoc, ok_bind]
    congr 1; funext e
    congr 1; funext len
    by_cases h : e ≤ len
    · simp only [if_pos h, obs_bind, obs_adapterNextLoop, obs_modify, obs_get, obs_pure, bind_assoc,
        ok_bind]
    · simp only [if_neg h, obs_pure]
  end_run c a := by
    simp only [Unwind.endU, SIMDIterator.end_, SIMDAdapter.end_, obs_bind, obs_get, obs_lift,
      bind_assoc, ok_bind]
    congr 1; funext len
    by_cases h : a.position < len
    · simp only [if_pos h, obs_bind, obs_modify, obs_get, obs_pure, obs_lift, bind_assoc, ok_bind]
      congr 1; funext o
      rw [obs_adapterEndLoop c a.iter.length o
        ⟨a.iter, a.default, a.default, a.position⟩ rfl]
      simp only [bind_assoc, ok_bind]
    · simp only [if_neg h, obs_pure]

/-- **C138**: `next` and `end` of an adapter with the adapter kept are `next` and `end`. -/
theorem C138_same_adapter (c : Cfg) (a : SIMDAdapter α w) :
    obs (Unwind.nextU c) a = SIMDIterable.next c a ∧ obs (Unwind.endU c) a = SIMDIterator.end_ c a :=
  ⟨LawfulUnwind.next_run c a, LawfulUnwind.end_run c a⟩

private theorem place_ok {S α β : Type} {x : MutM S α} {f : α → MutM S β} {s s' : S} {a : α}
    (h : x s = (ok a, s')) : (x >>= f) s = f a s' := by
  show MutM.bind x f s = _
  simp only [MutM.bind, h]

private theorem place_panic {S α β : Type} {x : MutM S α} {f : α → MutM S β} {s s' : S}
    (h : x s = (panic, s')) : (x >>= f) s = (panic, s') := by
  show MutM.bind x f s = _
  simp only [MutM.bind, h]

private theorem putU_ok {c : Cfg} {o : Nat} {x : α} {a : SIMDAdapter α w} (h : o < w) :
    SIMDAdapter.putU c o x a = (ok (), { a with scratch := a.scratch.set o x }) := by
  have hr := replaceUnchecked_ok (c := c) (v := a.scratch) (x := x) h
  simp only [SIMDAdapter.putU, MutM.modify, MutM.call, hr, ok_bind]

theorem adapterEndLoopU_panics (c : Cfg) (hd : c.debug = true) : ∀ (o n : Nat) (a : SIMDAdapter α w),
    o < w → o < a.iter.length → o < n →
    SIMDAdapter.endLoopU c n o a = (panic, { a with
      iter := a.iter.drop (o + 1)
      scratch := Vector.ofFn fun j => if j.val ≤ o then a.iter.getD (o - j.val) a.scratch[j]
        else a.scratch[j] }) := by
  intro o
  induction o with
  | zero =>
    intro n a hw hl hn
    obtain ⟨n, rfl⟩ : ∃ m, n = m + 1 := ⟨n - 1, by omega⟩
    rcases a with ⟨l, s, d, p⟩
    cases l with
    | nil => simp at hl
    | cons x rest =>
      have e : SIMDAdapter.endLoopU c (n + 1) 0 ⟨x :: rest, s, d, p⟩ =
          (SIMDAdapter.putU c 0 x >>= fun _ => MutM.lift (usub c 0 1) >>= fun o =>
            SIMDAdapter.endLoopU c n o) ⟨rest, s, d, p⟩ := rfl
      have hs : usub c 0 1 = panic := by simp [usub, hd]
      rw [e, place_ok (putU_ok hw), hs, place_panic (x := MutM.lift panic) rfl]
      simp only [Prod.mk.injEq, SIMDAdapter.mk.injEq, true_and, and_true]
      refine ⟨by simp, ?_⟩
      apply Vector.ext
      intro j hj
      simp only [Vector.getElem_set, Vector.getElem_ofFn]
      by_cases h : j = 0
      · subst h; simp
      · rw [if_neg (by omega), if_neg (by omega)]; rfl
  | succ o ih =>
    intro n a hw hl hn
    obtain ⟨n, rfl⟩ : ∃ m, n = m + 1 := ⟨n - 1, by omega⟩
    rcases a with ⟨l, s, d, p⟩
    cases l with
    | nil => simp at hl
    | cons x rest =>
      have e : SIMDAdapter.endLoopU c (n + 1) (o + 1) ⟨x :: rest, s, d, p⟩ =
          (SIMDAdapter.putU c (o + 1) x >>= fun _ => MutM.lift (usub c (o + 1) 1) >>= fun o =>
            SIMDAdapter.endLoopU c n o) ⟨rest, s, d, p⟩ := rfl
      have hs : usub c (o + 1) 1 = ok o := usub_ok (by omega)
      rw [e, place_ok (putU_ok hw), hs, place_ok (x := MutM.lift (ok o)) rfl]
      simp only [List.length_cons] at hl
      have := ih n ⟨rest, s.set (o + 1) x hw, d, p⟩ (by omega) (by simpa using hl) (by omega)
      refine this.trans ?_
      simp only [Prod.mk.injEq, SIMDAdapter.mk.injEq, true_and, and_true]
      refine ⟨by simp, ?_⟩
      apply Vector.ext
      intro j hj
      simp only [Vector.getElem_ofFn]
      by_cases h : j ≤ o
      · rw [if_pos h, if_pos (by omega), show o + 1 - j = (o - j) + 1 by omega]
        simp [show ¬ o + 1 = j by omega]
      · rw [if_neg h]
        by_cases h2 : j = o + 1
        · subst h2; simp
        · rw [if_neg (by omega)]; simp [show ¬ o + 1 = j by omega]

/-- **C138**: `end` of an adapter which has at least as many scalars left as lanes panics in
a debug build; the scalars it took are gone, and are left in its scratch vector in reverse order. -/
theorem C138_adapter_end_panics (c : Cfg) (hd : c.debug = true) (a : SIMDAdapter α w) (hw : 0 < w)
    (hp : a.position < a.iter.length) (hl : w ≤ a.iter.length) :
    Unwind.endU c a = (panic, { a with
      iter := a.iter.drop w
      scratch := Vector.ofFn fun j : Fin w => a.iter[w - 1 - j.val]'(by omega) }) := by
  have hs : usub c w 1 = ok (w - 1) := usub_ok (by omega)
  have h := adapterEndLoopU_panics c hd (w - 1) a.iter.length { a with scratch := a.default }
    (by omega) (by simpa using (by omega : w - 1 < a.iter.length)) (by omega)
  simp only [Unwind.endU]
  rw [place_ok (x := MutM.get) rfl, place_ok (x := MutM.lift (scalarLen c a)) (a := a.iter.length) rfl,
    if_pos hp,
    place_ok (x := MutM.modify _) rfl, hs, place_ok (x := MutM.lift (ok (w - 1))) rfl, place_panic h]
  simp only [Prod.mk.injEq, SIMDAdapter.mk.injEq, true_and, and_true]
  refine ⟨by rw [show w - 1 + 1 = w by omega], ?_⟩
  apply Vector.ext
  intro j hj
  simp only [Vector.getElem_ofFn]
  rw [if_pos (by omega)]
  simp [List.getD_eq_getElem?_getD, List.getElem?_eq_getElem (show w - 1 - j < a.iter.length by omega)]

end Adapter

/-- **C138**: likewise for maps, zips, mapped zips and strided zips of such iterators. -/
theorem C138_same_views {I α : Type} {w : Nat} [SIMDSized I] [SIMDIterator I α w] [Packable α]
    [Unwind I α w] [LawfulUnwind I α w] (c : Cfg) :
    (∀ {σ β : Type} {w' : Nat} [Packable β] (m : SIMDMap I σ α w β w'),
      obs (Unwind.nextU c) m = SIMDIterable.next c m ∧
      obs (Unwind.endU c) m = SIMDIterator.end_ c m) ∧
    (∀ {R γ : Type} [ZipRest R γ] (z : Zip I R),
      obs (UnwindZ.nextU c) z = SIMDZippedIterator.next c z ∧
      obs (UnwindZ.endU c) z = SIMDZippedIterator.end_ c z) ∧
    (∀ {R γ σ β : Type} {w' : Nat} [ZipRest R γ] [Packable β]
        (m : SIMDZipMap (Zip I R) σ (Vector α w × γ) β w'),
      obs (Unwind.nextU c) m = SIMDIterable.next c m ∧
      obs (Unwind.endU c) m = SIMDIterator.end_ c m) ∧
    (∀ z : StrideZip I α w,
      obs (UnwindZ.nextU c) z = SIMDZippedIterator.next c z ∧
      obs (UnwindZ.endU c) z = SIMDZippedIterator.end_ c z) :=
  ⟨fun m => ⟨LawfulUnwind.next_run c m, LawfulUnwind.end_run c m⟩,
    fun z => ⟨LawfulUnwindZ.next_run c z, LawfulUnwindZ.end_run c z⟩,
    fun m => ⟨LawfulUnwind.next_run c m, LawfulUnwind.end_run c m⟩,
    fun z => ⟨LawfulUnwindZ.next_run c z, LawfulUnwindZ.end_run c z⟩⟩

section Consumers
variable {I α : Type} {w : Nat} [SIMDSized I] [SIMDIterator I α w] [Unwind I α w] [LawfulUnwind I α w]

theorem obs_collectLoopU (c : Cfg) : ∀ (fuel : Nat) (it : I) (buf : List (Option α)) (o : Nat)
    (last : Vector α w), obs (collectLoopU c fuel buf o last) it =
      fillLoop c some fuel it buf o last >>= fun p => ok ((p.2.1, p.2.2.1, p.2.2.2), p.1)
  | 0, _, _, _, _ => rfl
  | fuel + 1, it, buf, o, last => by
    simp only [collectLoopU, fillLoop, obs_bind, LawfulUnwind.next_run, bind_assoc]
    congr 1; funext ⟨r, it⟩
    cases r with
    | none => rfl
    | some v =>
      simp only [obs_bind, bind_assoc, ok_bind, obs_lift]
      congr 1; funext buf
      congr 1; funext o
      exact obs_collectLoopU c fuel it buf o v

/-- **C138**: `scalar_collect` with the iterator kept is `scalar_collect`. -/
theorem C138_same_collect [Packable α] (c : Cfg) (fuel : Nat) (it : I) :
    obs (scalarCollectU c fuel) it = scalarCollect c fuel it >>= fun p => ok (p.2, p.1) := by
  simp only [scalarCollectU, scalarCollect, obs_bind, obs_get, obs_lift, bind_assoc, ok_bind]
  congr 1; funext l
  congr 1; funext l1
  congr 1; funext cap
  congr 1; funext l2
  congr 1; funext l3
  congr 1; funext n
  congr 1; funext ret
  simp only [obs_collectLoopU, bind_assoc, ok_bind]
  congr 1; funext ⟨it, buf, o, last⟩
  simp only [LawfulUnwind.end_run]
  congr 1; funext ⟨r, it⟩
  cases r with
  | none => simp only [obs_bind, obs_get, obs_lift, bind_assoc, ok_bind]
  | some q => simp only [obs_lift, bind_assoc, ok_bind]

theorem obs_fillAllLoopU {κ : Type} (c : Cfg) (inj : α → κ) : ∀ (fuel : Nat) (it : I)
    (buf : List κ) (o : Nat), obs (fillAllLoopU c inj fuel o) (it, buf) =
      fillAllLoop c inj fuel it buf o >>= fun p => ok (p.2.2, (p.1, p.2.1))
  | 0, _, _, _ => rfl
  | fuel + 1, it, buf, o => by
    simp only [fillAllLoopU, fillAllLoop, obs_bind, obs_onFst, LawfulUnwind.next_run, bind_assoc, ok_bind]
    congr 1; funext ⟨r, it⟩
    cases r with
    | none => rfl
    | some v =>
      simp only [obs_bind, obs_onSnd, obs_modify, bind_assoc, ok_bind, obs_lift]
      congr 1; funext buf
      congr 1; funext o
      exact obs_fillAllLoopU c inj fuel it buf o

theorem obs_fillAllCellsU {κ : Type} (c : Cfg) (inj : α → κ) (fuel : Nat) (it : I) (buf : List κ) :
    obs (fillAllCellsU c inj fuel) (it, buf) =
      scalarFillAllCells c inj fuel it buf >>= fun p => ok ((), p) := by
  simp only [fillAllCellsU, scalarFillAllCells, obs_bind, obs_fillAllLoopU, obs_onFst,
    LawfulUnwind.end_run, bind_assoc, ok_bind]
  congr 1; funext ⟨it, buf, o⟩
  simp only []
  congr 1; funext ⟨r, it⟩
  cases r with
  | none => rfl
  | some q => simp only [obs_onSnd, obs_modify, bind_assoc, ok_bind]

/-- **C138**: `scalar_fill_all` with the places kept is `scalar_fill_all`. -/
theorem C138_same_fill_all (c : Cfg) (fuel : Nat) (it : I) (buf : List α) :
    obs (scalarFillAllU c fuel) (it, buf) = scalarFillAll c fuel it buf >>= fun p => ok ((), p) :=
  obs_fillAllCellsU c id fuel it buf

omit [SIMDSized I] [SIMDIterator I α w] [Unwind I α w] [LawfulUnwind I α w] in
theorem obs_withLocal {B r : Type} (b : B) (x : MutM (I × B) r) (s : I) :
    obs (MutM.withLocal b x) s = obs x (s, b) >>= fun p => ok ((p.1, p.2.2), p.2.1) := by
  unfold obs MutM.withLocal
  rcases h : x (s, b) with ⟨r, t⟩
  cases r <;> rfl

/-- **C138**: `scalar_collect_all` with the iterator kept is `scalar_collect_all`. -/
theorem C138_same_collect_all (c : Cfg) (fuel : Nat) (it : I) :
    obs (scalarCollectAllU c fuel) it = scalarCollectAll c fuel it >>= fun p => ok (p.2, p.1) := by
  simp only [scalarCollectAllU, scalarCollectAll, obs_bind, obs_get, obs_lift, bind_assoc, ok_bind]
  congr 1; funext l
  congr 1; funext l1
  congr 1; funext cap
  congr 1; funext l2
  congr 1; funext ret
  simp only [obs_withLocal, obs_fillAllCellsU, bind_assoc, ok_bind]
  rfl

end Consumers

/-! ### What is kept by a panic -/

/-- `P` holds after `m` if it held before, also if `m` panics. -/
def MutM.Keeps {S r : Type} (P : S → Prop) (m : MutM S r) : Prop := ∀ s, P s → P (m s).2

section Keeps
variable {S r r' : Type} {P : S → Prop}

theorem keeps_bind {m : MutM S r} {f : r → MutM S r'} (h : m.Keeps P) (hf : ∀ a, (f a).Keeps P) :
    (m >>= f).Keeps P := by
  intro s hs
  have e : (m >>= f) s = MutM.bind m f s := rfl
  rw [e]
  unfold MutM.bind
  have h1 := h s hs
  rcases h2 : m s with ⟨x, t⟩
  rw [h2] at h1
  cases x with
  | ok a => exact hf a t h1
  | _ => exact h1

theorem keeps_pure (a : r) : (Pure.pure a : MutM S r).Keeps P := fun _ h => h
theorem keeps_lift (x : Res r) : (MutM.lift x : MutM S r).Keeps P := fun _ h => h
theorem keeps_get : (MutM.get : MutM S S).Keeps P := fun _ h => h

theorem keeps_call {f : S → Res (r × S)} (h : ∀ s, P s → ∀ a t, f s = ok (a, t) → P t) :
    (MutM.call f).Keeps P := by
  intro s hs
  unfold MutM.call
  cases h2 : f s with
  | ok p => exact h s hs p.1 p.2 h2
  | _ => exact hs

theorem keeps_modify {f : S → Res S} (h : ∀ s, P s → ∀ t, f s = ok t → P t) :
    (MutM.modify f).Keeps P := by
  refine keeps_call fun s hs a t e => ?_
  cases h2 : f s with
  | ok u => rw [h2] at e; cases e; exact h s hs _ h2
  | _ => rw [h2] at e; cases e

theorem keeps_onFst {B : Type} {m : MutM S r} (h : m.Keeps P) :
    (MutM.onFst m : MutM (S × B) r).Keeps fun p => P p.1 := fun _ hs => h _ hs

theorem keeps_onSnd {B : Type} (m : MutM B r) :
    (MutM.onSnd m : MutM (S × B) r).Keeps fun p => P p.1 := fun _ hs => hs

theorem keeps_withLocal {B : Type} {m : MutM (S × B) r} (b : B) (h : m.Keeps fun p => P p.1) :
    (MutM.withLocal b m).Keeps P := fun s hs => h (s, b) hs

end Keeps

/-- `Closures.differ x y`: `y` is `x` apart from the variables captured by its closures. A closure
which panics may leave them with any values. -/
class Closures (I : Type) where
  differ : I → I → Prop

instance {A α : Type} {w : Nat} : Closures (SIMDIter A α w) where differ := Eq
instance {A α : Type} {w : Nat} : Closures (PackedStride A α w) where differ := Eq
instance {α : Type} {w : Nat} : Closures (SIMDAdapter α w) where differ := Eq
instance {I σ α β : Type} {w w' : Nat} [Closures I] : Closures (SIMDMap I σ α w β w') where
  differ m m' := Closures.differ m.iter m'.iter ∧ m'.func = m.func
instance {I R : Type} [Closures I] : Closures (Zip I R) where
  differ z z' := Closures.differ z.first z'.first ∧ z'.rest = z.rest
instance {I α : Type} {w : Nat} [Closures I] : Closures (StrideZip I α w) where
  differ z z' := z'.base = z.base ∧ z'.peek = z.peek ∧ Closures.differ z.iter z'.iter
instance {Z σ γ β : Type} {w' : Nat} [Closures Z] : Closures (SIMDZipMap Z σ γ β w') where
  differ m m' := Closures.differ m.iter m'.iter ∧ m'.func = m.func

/-- Iterators over collections have no closures, and a panic leaves them unchanged. -/
class PlainUnwind (I α : Type) (w : Nat) [SIMDSized I] [SIMDIterator I α w] [Unwind I α w]
    [Closures I] : Prop where
  next_call (c : Cfg) : (Unwind.nextU c : MutM I _) = MutM.call (SIMDIterable.next c)
  end_call (c : Cfg) : (Unwind.endU c : MutM I _) = MutM.call (SIMDIterator.end_ c)
  differ_eq (x y : I) : Closures.differ x y → x = y

instance {A α : Type} {w : Nat} [SIMDSized A] [SIMDArray A α w] : PlainUnwind (SIMDIter A α w) α w where
  next_call _ := rfl
  end_call _ := rfl
  differ_eq _ _ h := h

instance {A α : Type} {w : Nat} [Packable α] [SIMDSized A] [SIMDArray A α w] :
    PlainUnwind (PackedStride A α w) α w where
  next_call _ := rfl
  end_call _ := rfl
  differ_eq _ _ h := h

mutual

/-- Iterators in every state reachable with the constructors and the methods when panics are
caught. -/
inductive Caught (c : Cfg) : (I α : Type) → (w : Nat) → (sz : SIMDSized I) →
    (it : SIMDIterator I α w) → Unwind I α w → Closures I → I → Prop where
  | base {I α : Type} {w : Nat} {sz : SIMDSized I} {it : SIMDIterator I α w}
      {arr : SIMDArray I α w} {uw : Unwind I α w} {cl : Closures I} [PlainUnwind I α w] {x : I} :
    BuiltBase c I α w sz it arr x → Caught c I α w sz it uw cl x
  | slice {α : Type} {w : Nat} (x : SIMDIter (Slice α w) α w) :
    Caught c (SIMDIter (Slice α w) α w) α w inferInstance inferInstance inferInstance inferInstance x
  | adapter {α : Type} {w : Nat} (a : SIMDAdapter α w) :
    Caught c (SIMDAdapter α w) α w inferInstance inferInstance inferInstance inferInstance a
  | map {I α σ β : Type} {w w' : Nat} {sz : SIMDSized I} {it : SIMDIterator I α w}
      {uw : Unwind I α w} {cl : Closures I} [Packable α] [Packable β] {x : I} (st : σ)
      (f : FnMut σ (Vector α w) (Vector β w')) :
    Caught c I α w sz it uw cl x → SafeFn f →
    Caught c (SIMDMap I σ α w β w') β w' inferInstance inferInstance inferInstance inferInstance
      (simdMap x st f)
  | zipMap {Z γ σ β : Type} {w' : Nat} {zi : SIMDZippedIterator Z γ} {uw : UnwindZ Z γ}
      {cl : Closures Z} [Packable β] {z : Z} (st : σ) (f : FnMut σ γ (Vector β w')) :
    CaughtZip c Z γ zi uw cl z → SafeFn f →
    Caught c (SIMDZipMap Z σ γ β w') β w' inferInstance inferInstance inferInstance inferInstance
      (zsimdMap z st f)
  | next {I α : Type} {w : Nat} {sz : SIMDSized I} {it : SIMDIterator I α w} {uw : Unwind I α w}
      {cl : Closures I} {x : I} :
    Caught c I α w sz it uw cl x → Caught c I α w sz it uw cl (Unwind.nextU c x).2
  | end_ {I α : Type} {w : Nat} {sz : SIMDSized I} {it : SIMDIterator I α w} {uw : Unwind I α w}
      {cl : Closures I} {x : I} :
    Caught c I α w sz it uw cl x → Caught c I α w sz it uw cl (Unwind.endU c x).2
  | advance {I α : Type} {w : Nat} {sz : SIMDSized I} {it : SIMDIterator I α w} {uw : Unwind I α w}
      {cl : Closures I} {x x' : I} (k : Nat) :
    Caught c I α w sz it uw cl x → SIMDIterable.advance c x k = ok x' →
    Caught c I α w sz it uw cl x'
  | captured {I α : Type} {w : Nat} {sz : SIMDSized I} {it : SIMDIterator I α w}
      {uw : Unwind I α w} {cl : Closures I} {x x' : I} :
    Caught c I α w sz it uw cl x → Closures.differ x x' → Caught c I α w sz it uw cl x'

/-- Zips in every state reachable with the constructors and the methods when panics are caught. -/
inductive CaughtZip (c : Cfg) : (Z γ : Type) → SIMDZippedIterator Z γ → UnwindZ Z γ → Closures Z →
    Z → Prop where
  | zip {I R α γ : Type} {w : Nat} {sz : SIMDSized I} {it : SIMDIterator I α w}
      {uw : Unwind I α w} {cl : Closures I} [Packable α] {zr : ZipRest R γ} {x : I} {r : R}
      {z : Zip I R} :
    Caught c I α w sz it uw cl x → BuiltRest c R γ zr r → zip c x r = ok z →
    CaughtZip c (Zip I R) (Vector α w × γ) inferInstance inferInstance inferInstance z
  | strideZip {I α : Type} {w : Nat} {sz : SIMDSized I} {it : SIMDIterator I α w}
      {uw : Unwind I α w} {cl : Closures I} [Packable α] {x : I} {z : StrideZip I α w} :
    Caught c I α w sz it uw cl x → strideZip c x = ok z →
    CaughtZip c (StrideZip I α w) (Vector α w × Vector α w) inferInstance inferInstance
      inferInstance z
  | next {Z γ : Type} {zi : SIMDZippedIterator Z γ} {uw : UnwindZ Z γ} {cl : Closures Z} {z : Z} :
    CaughtZip c Z γ zi uw cl z → CaughtZip c Z γ zi uw cl (UnwindZ.nextU c z).2
  | end_ {Z γ : Type} {zi : SIMDZippedIterator Z γ} {uw : UnwindZ Z γ} {cl : Closures Z} {z : Z} :
    CaughtZip c Z γ zi uw cl z → CaughtZip c Z γ zi uw cl (UnwindZ.endU c z).2
  | advance {Z γ : Type} {zi : SIMDZippedIterator Z γ} {uw : UnwindZ Z γ} {cl : Closures Z}
      {z z' : Z} (k : Nat) :
    CaughtZip c Z γ zi uw cl z → SIMDZippedIterator.advance c z k = ok z' →
    CaughtZip c Z γ zi uw cl z'
  | captured {Z γ : Type} {zi : SIMDZippedIterator Z γ} {uw : UnwindZ Z γ} {cl : Closures Z}
      {z z' : Z} :
    CaughtZip c Z γ zi uw cl z → Closures.differ z z' → CaughtZip c Z γ zi uw cl z'

end

/-- `Caught` with the classes inferred. -/
abbrev IsCaught {I α : Type} {w : Nat} [sz : SIMDSized I] [it : SIMDIterator I α w]
    [uw : Unwind I α w] [cl : Closures I] (c : Cfg) (x : I) : Prop := Caught c I α w sz it uw cl x

/-- What is proved by induction about an iterator: a safe invariant which panics keep. -/
structure Sturdy {I α : Type} {w : Nat} [SIMDSized I] [SIMDIterator I α w] [Unwind I α w]
    [Closures I] (c : Cfg) (P : I → Prop) : Prop where
  safe : SafeIter c P
  next_keeps : (Unwind.nextU c : MutM I _).Keeps P
  end_keeps : (Unwind.endU c : MutM I _).Keeps P
  differ_keeps : ∀ x y, Closures.differ x y → P x → P y

/-- The same for a zip. -/
structure SturdyZip {Z γ : Type} [SIMDZippedIterator Z γ] [UnwindZ Z γ] [Closures Z] (c : Cfg)
    (P : Z → Prop) : Prop where
  safe : SafeZip c P
  next_keeps : (UnwindZ.nextU c : MutM Z _).Keeps P
  end_keeps : (UnwindZ.endU c : MutM Z _).Keeps P
  differ_keeps : ∀ x y, Closures.differ x y → P x → P y

variable {c : Cfg}

theorem sturdy_plain {I α : Type} {w : Nat} [SIMDSized I] [SIMDIterator I α w] [Unwind I α w]
    [Closures I] [PlainUnwind I α w] {P : I → Prop} (h : SafeIter c P) : Sturdy c P where
  safe := h
  next_keeps := by
    rw [PlainUnwind.next_call]
    exact keeps_call fun s hs a t e => ((h.next s hs).of_ok e).1
  end_keeps := by
    rw [PlainUnwind.end_call]
    exact keeps_call fun s hs a t e => ((h.end_ s hs).of_ok e).1
  differ_keeps x y e hx := by rw [← PlainUnwind.differ_eq α w x y e]; exact hx

theorem sturdy_adapter {α : Type} {w : Nat} (hd : c.debug = true) :
    Sturdy c (fun _ : SIMDAdapter α w => True) where
  safe := C79_adapter hd
  next_keeps _ _ := trivial
  end_keeps _ _ := trivial
  differ_keeps _ _ _ _ := trivial

theorem mapCallU_keeps {I σ α β : Type} {w w' : Nat} {P : I → Prop} (v : Vector α w) :
    (SIMDMap.callU v : MutM (SIMDMap I σ α w β w') _).Keeps fun m => P m.iter ∧ SafeFn m.func := by
  refine keeps_call fun m hm a t e => ?_
  cases h : m.func m.st v with
  | ok p => rw [h] at e; cases e; exact hm
  | _ => rw [h] at e; cases e

theorem zmapCallU_keeps {Z σ γ β : Type} {w' : Nat} {P : Z → Prop} (v : γ) :
    (SIMDZipMap.callU v : MutM (SIMDZipMap Z σ γ β w') _).Keeps
      fun m => P m.iter ∧ SafeFn m.func := by
  refine keeps_call fun m hm a t e => ?_
  cases h : m.func m.st v with
  | ok p => rw [h] at e; cases e; exact hm
  | _ => rw [h] at e; cases e

theorem sturdy_map {I σ α β : Type} {w w' : Nat} [SIMDSized I] [SIMDIterator I α w] [Unwind I α w]
    [Closures I] [Packable α] [Packable β] (hd : c.debug = true) {P : I → Prop} (h : Sturdy c P) :
    Sturdy c (fun m : SIMDMap I σ α w β w' => P m.iter ∧ SafeFn m.func) where
  safe := C79_map hd h.safe
  next_keeps := by
    refine keeps_bind (fun m hm => ⟨h.next_keeps _ hm.1, hm.2⟩) fun r => ?_
    cases r with
    | none => exact keeps_pure _
    | some v => exact keeps_bind (mapCallU_keeps v) fun _ => keeps_pure _
  end_keeps := by
    refine keeps_bind (fun m hm => ⟨h.end_keeps _ hm.1, hm.2⟩) fun r => ?_
    cases r with
    | none => exact keeps_pure _
    | some v =>
      exact keeps_bind (keeps_lift _) fun _ => keeps_bind (mapCallU_keeps v.1) fun _ => keeps_pure _
  differ_keeps x y e hx := ⟨h.differ_keeps _ _ e.1 hx.1, e.2 ▸ hx.2⟩

theorem sturdy_zip {I R α γ : Type} {w : Nat} [SIMDSized I] [SIMDIterator I α w] [Unwind I α w]
    [Closures I] [Packable α] [ZipRest R γ] {P : I → Prop} {S : R → Prop} (h : Sturdy c P)
    (hs : SafeRest c S) : SturdyZip c (fun z : Zip I R => P z.first ∧ S z.rest) where
  safe := C79_zip h.safe hs
  next_keeps := by
    refine keeps_bind keeps_get fun z => keeps_bind (keeps_lift _) fun pos => ?_
    refine keeps_bind (fun m hm => ⟨h.next_keeps _ hm.1, hm.2⟩) fun r => ?_
    cases r with
    | none => exact keeps_pure _
    | some v =>
      exact keeps_bind keeps_get fun z => keeps_bind (keeps_lift _) fun _ => keeps_pure _
  end_keeps := by
    refine keeps_bind keeps_get fun z => keeps_bind (keeps_lift _) fun pos => ?_
    refine keeps_bind (fun m hm => ⟨h.end_keeps _ hm.1, hm.2⟩) fun r => ?_
    cases r with
    | none => exact keeps_pure _
    | some v =>
      exact keeps_bind keeps_get fun z => keeps_bind (keeps_lift _) fun _ => keeps_pure _
  differ_keeps x y e hx := ⟨h.differ_keeps _ _ e.1 hx.1, e.2 ▸ hx.2⟩

theorem sturdy_stride_zip {I α : Type} {w : Nat} [SIMDSized I] [SIMDIterator I α w] [Unwind I α w]
    [Closures I] [Packable α] (hd : c.debug = true) {P : I → Prop} (h : Sturdy c P) :
    SturdyZip c (fun z : StrideZip I α w => P z.iter) where
  safe := C79_stride_zip hd h.safe
  next_keeps := by
    refine keeps_bind (fun m hm => h.next_keeps _ hm) fun r => ?_
    cases r with
    | none => exact keeps_pure _
    | some v =>
      refine keeps_bind (fun m hm => h.next_keeps _ hm) fun r => ?_
      cases r with
      | none =>
        refine keeps_bind (keeps_modify fun z hz t e => ?_) fun _ => keeps_pure _
        cases e; exact hz
      | some v => exact keeps_pure _
  end_keeps := by
    refine keeps_bind (fun m hm => h.next_keeps _ hm) fun r => ?_
    refine keeps_bind (fun m hm => h.end_keeps _ hm) fun e => ?_
    refine keeps_bind keeps_get fun z => ?_
    cases r with
    | some v => exact keeps_bind (keeps_lift _) fun _ => keeps_pure _
    | none =>
      cases hz : z.peek with
      | some v =>
        simp only []
        refine keeps_bind (keeps_modify fun z hz t e => ?_) fun _ =>
          keeps_bind (keeps_lift _) fun _ => keeps_pure _
        cases e; exact hz
      | none =>
        simp only []
        split
        · exact keeps_pure _
        · exact keeps_pure _
  differ_keeps x y e hx := h.differ_keeps _ _ e.2.2 hx

theorem sturdy_zip_map {Z σ γ β : Type} {w' : Nat} [SIMDZippedIterator Z γ] [UnwindZ Z γ]
    [Closures Z] [Packable β] (hd : c.debug = true) {P : Z → Prop} (h : SturdyZip c P) :
    Sturdy c (fun m : SIMDZipMap Z σ γ β w' => P m.iter ∧ SafeFn m.func) where
  safe := C79_zip_map hd h.safe
  next_keeps := by
    refine keeps_bind (fun m hm => ⟨h.next_keeps _ hm.1, hm.2⟩) fun r => ?_
    cases r with
    | none => exact keeps_pure _
    | some v => exact keeps_bind (zmapCallU_keeps v) fun _ => keeps_pure _
  end_keeps := by
    refine keeps_bind (fun m hm => ⟨h.end_keeps _ hm.1, hm.2⟩) fun r => ?_
    cases r with
    | none => exact keeps_pure _
    | some v =>
      exact keeps_bind keeps_get fun _ => keeps_bind (keeps_lift _) fun _ =>
        keeps_bind (zmapCallU_keeps v.1) fun _ => keeps_pure _
  differ_keeps x y e hx := ⟨h.differ_keeps _ _ e.1 hx.1, e.2 ▸ hx.2⟩

private def GoodC (c : Cfg) (I α : Type) (w : Nat) (sz : SIMDSized I) (it : SIMDIterator I α w)
    (uw : Unwind I α w) (cl : Closures I) (x : I) : Prop := ∃ P : I → Prop, Sturdy c P ∧ P x

private def GoodCZ (c : Cfg) (Z γ : Type) (zi : SIMDZippedIterator Z γ) (uw : UnwindZ Z γ)
    (cl : Closures Z) (z : Z) : Prop := ∃ P : Z → Prop, SturdyZip c P ∧ P z

private theorem good_base (hd : c.debug = true) {I α : Type} {w : Nat} {sz : SIMDSized I}
    {it : SIMDIterator I α w} {arr : SIMDArray I α w} {uw : Unwind I α w} {cl : Closures I}
    [PlainUnwind I α w] {x : I} (h : BuiltBase c I α w sz it arr x) :
    GoodC c I α w sz it uw cl x := by
  obtain ⟨P, h1, -, h2⟩ := builtBase_safe hd h
  exact ⟨P, sturdy_plain h1, h2⟩

private theorem good_zip (hd : c.debug = true) {I R α γ : Type} {w : Nat} {sz : SIMDSized I}
    {it : SIMDIterator I α w} {uw : Unwind I α w} {cl : Closures I} [Packable α]
    {zr : ZipRest R γ} {x : I} {r : R} {z : Zip I R} (h : GoodC c I α w sz it uw cl x)
    (hr : BuiltRest c R γ zr r) (e : zip c x r = ok z) :
    GoodCZ c (Zip I R) (Vector α w × γ) inferInstance inferInstance inferInstance z := by
  obtain ⟨P, h1, h2⟩ := h
  obtain ⟨S, h3, h4⟩ := builtRest_safe hd hr
  exact ⟨_, sturdy_zip h1 h3, (C79_zip_new h1.safe h3 _ _ h2 h4).of_ok e⟩

private theorem good_strideZip (hd : c.debug = true) {I α : Type} {w : Nat} {sz : SIMDSized I}
    {it : SIMDIterator I α w} {uw : Unwind I α w} {cl : Closures I} [Packable α] {x : I}
    {z : StrideZip I α w} (h : GoodC c I α w sz it uw cl x) (e : strideZip c x = ok z) :
    GoodCZ c (StrideZip I α w) (Vector α w × Vector α w) inferInstance inferInstance
      inferInstance z := by
  obtain ⟨P, h1, h2⟩ := h
  refine ⟨_, sturdy_stride_zip hd h1, ?_⟩
  refine Res.Ensures.of_ok (Q := fun z => P z.iter) ?_ e
  exact ensures_bind (h1.safe.scalarPos _ h2) fun _ _ _ => h2

set_option hygiene false in
/-- The cases of the two inductions below. -/
local macro "caught_cases" : tactic => `(tactic| (
  · exact fun h => good_base hd h
  · exact fun x => ⟨_, sturdy_plain (C79_iter hd (C79_slice hd)), trivial⟩
  · exact fun a => ⟨_, sturdy_adapter hd, trivial⟩
  · exact fun st f _ hf ⟨P, h1, h2⟩ => ⟨_, sturdy_map hd h1, h2, hf⟩
  · exact fun st f _ hf ⟨P, h1, h2⟩ => ⟨_, sturdy_zip_map hd h1, h2, hf⟩
  · exact fun _ ⟨P, h1, h2⟩ => ⟨P, h1, h1.next_keeps _ h2⟩
  · exact fun _ ⟨P, h1, h2⟩ => ⟨P, h1, h1.end_keeps _ h2⟩
  · exact fun k _ e ⟨P, h1, h2⟩ => ⟨P, h1, ((h1.safe.advance _ k h2).of_ok e).1⟩
  · exact fun _ e ⟨P, h1, h2⟩ => ⟨P, h1, h1.differ_keeps _ _ e h2⟩
  · exact fun _ hr e ih => good_zip hd ih hr e
  · exact fun _ e ih => good_strideZip hd ih e
  · exact fun _ ⟨P, h1, h2⟩ => ⟨P, h1, h1.next_keeps _ h2⟩
  · exact fun _ ⟨P, h1, h2⟩ => ⟨P, h1, h1.end_keeps _ h2⟩
  · exact fun k _ e ⟨P, h1, h2⟩ => ⟨P, h1, ((h1.safe.advance _ k h2).of_ok e).1⟩
  · exact fun _ e ⟨P, h1, h2⟩ => ⟨P, h1, h1.differ_keeps _ _ e h2⟩))

theorem caught_sturdy (hd : c.debug = true) {I α : Type} {w : Nat} {sz : SIMDSized I}
    {it : SIMDIterator I α w} {uw : Unwind I α w} {cl : Closures I} {x : I}
    (h : Caught c I α w sz it uw cl x) : ∃ P : I → Prop, Sturdy c P ∧ P x := by
  refine Caught.rec (motive_1 := fun I α w sz it uw cl x _ => GoodC c I α w sz it uw cl x)
    (motive_2 := fun Z γ zi uw cl z _ => GoodCZ c Z γ zi uw cl z)
    ?_ ?_ ?_ ?_ ?_ ?_ ?_ ?_ ?_ ?_ ?_ ?_ ?_ ?_ ?_ h
  caught_cases

theorem caughtZip_sturdy (hd : c.debug = true) {Z γ : Type} {zi : SIMDZippedIterator Z γ}
    {uw : UnwindZ Z γ} {cl : Closures Z} {z : Z} (h : CaughtZip c Z γ zi uw cl z) :
    ∃ P : Z → Prop, SturdyZip c P ∧ P z := by
  refine CaughtZip.rec (motive_1 := fun I α w sz it uw cl x _ => GoodC c I α w sz it uw cl x)
    (motive_2 := fun Z γ zi uw cl z _ => GoodCZ c Z γ zi uw cl z)
    ?_ ?_ ?_ ?_ ?_ ?_ ?_ ?_ ?_ ?_ ?_ ?_ ?_ ?_ ?_ h
  caught_cases

/-! ### The theorems -/

section
variable {I α : Type} {w : Nat} {sz : SIMDSized I} {it : SIMDIterator I α w} {uw : Unwind I α w}
  {cl : Closures I} {x : I}

/-- **C138**: in a debug build, no method of an iterator has undefined behaviour, whatever panics
were caught before. -/
theorem C138_methods (hd : c.debug = true) (h : Caught c I α w sz it uw cl x) :
    (next c x).isSafe ∧ (end_ c x).isSafe ∧ (∀ k, (advance c x k).isSafe) ∧
    (finalize c x).isSafe ∧ (len c x).isSafe ∧ (scalarPos c x).isSafe ∧ (scalarLen c x).isSafe ∧
    (vectorPos c x).isSafe ∧ (vecLen c x).isSafe := by
  obtain ⟨P, h1, h2⟩ := caught_sturdy hd h
  replace h1 := h1.safe
  exact ⟨(h1.next x h2).isSafe, (h1.end_ x h2).isSafe, fun k => (h1.advance x k h2).isSafe,
    (finalize_ensures hd h1.toSafeIterable x h2).isSafe, (h1.len x h2).isSafe,
    (h1.scalarPos x h2).isSafe, (h1.scalarLen x h2).isSafe, (h1.vectorPos x h2).isSafe,
    (h1.vecLen x h2).isSafe⟩

/-- **C138**: nor has a consumer. -/
theorem C138_consumers [Packable α] (hd : c.debug = true) (hw : 0 < w)
    (h : Caught c I α w sz it uw cl x) (fuel : Nat) :
    (scalarCollect c fuel x).isSafe ∧ (scalarCollectAll c fuel x).isSafe ∧
    (∀ buf, (scalarFill c fuel x buf).isSafe) ∧ (∀ buf, (scalarFillAll c fuel x buf).isSafe) ∧
    (∀ (σ : Type) (st : σ) (f : FnMut σ (Vector α w) Unit), SafeFn f →
      (simdDoEach c fuel x st f).isSafe) ∧
    (∀ (A σ : Type) (a : A) (st : σ) (f : σ → A → Vector α w → Res (A × σ)), SafeFn2 f →
      (simdReduce c fuel x a st f).isSafe) := by
  obtain ⟨P, h1, h2⟩ := caught_sturdy hd h
  replace h1 := h1.safe
  exact ⟨(C79_collect hd h1 fuel x h2).isSafe, (C79_collect_all hd hw h1 fuel x h2).isSafe,
    fun buf => (C79_fill hd h1 fuel x buf h2).isSafe,
    fun buf => (C79_fill_all hd h1 fuel x buf h2).isSafe,
    fun σ st f hf => (C79_do_each h1 hf fuel x st h2).isSafe,
    fun A σ a st f hf => (C79_reduce h1 hf fuel x a st h2).isSafe⟩

/-- `Caught` is itself kept by `next` and `end`. -/
private theorem nextU_keeps : (Unwind.nextU c : MutM I _).Keeps (Caught c I α w sz it uw cl) :=
  fun _ h => h.next

private theorem endU_keeps : (Unwind.endU c : MutM I _).Keeps (Caught c I α w sz it uw cl) :=
  fun _ h => h.end_

private theorem fillLoopU_keeps : ∀ (fuel o : Nat) (v : Vector α w),
    (fillLoopU c fuel o v : MutM (I × List α) _).Keeps fun p => Caught c I α w sz it uw cl p.1
  | 0, _, _ => keeps_lift _
  | fuel + 1, o, v => by
    refine keeps_bind (keeps_onFst nextU_keeps) fun r => ?_
    cases r with
    | none => exact keeps_pure _
    | some v =>
      exact keeps_bind (keeps_onSnd _) fun _ => keeps_bind (keeps_lift _) fun o =>
        fillLoopU_keeps fuel o v

private theorem fillTailLoopU_keeps {P : I → Prop} (p : Vector α w) (n o : Nat) : ∀ k i : Nat,
    (fillTailLoopU c p n o k i : MutM (I × List α) _).Keeps fun p => P p.1
  | 0, _ => keeps_pure _
  | k + 1, i =>
    keeps_bind (keeps_lift _) fun _ => keeps_bind (keeps_lift _) fun _ =>
      keeps_bind (keeps_onSnd _) fun _ => fillTailLoopU_keeps p n o k (i + 1)

private theorem collectLoopU_keeps : ∀ (fuel : Nat) (buf : List (Option α)) (o : Nat)
    (v : Vector α w), (collectLoopU c fuel buf o v : MutM I _).Keeps (Caught c I α w sz it uw cl)
  | 0, _, _, _ => keeps_lift _
  | fuel + 1, buf, o, v => by
    refine keeps_bind nextU_keeps fun r => ?_
    cases r with
    | none => exact keeps_pure _
    | some v =>
      exact keeps_bind (keeps_lift _) fun _ => keeps_bind (keeps_lift _) fun o =>
        collectLoopU_keeps fuel _ o v

private theorem fillAllLoopU_keeps {κ : Type} (inj : α → κ) : ∀ (fuel o : Nat),
    (fillAllLoopU c inj fuel o : MutM (I × List κ) _).Keeps fun p => Caught c I α w sz it uw cl p.1
  | 0, _ => keeps_lift _
  | fuel + 1, o => by
    refine keeps_bind (keeps_onFst nextU_keeps) fun r => ?_
    cases r with
    | none => exact keeps_pure _
    | some v =>
      exact keeps_bind (keeps_onSnd _) fun _ => keeps_bind (keeps_lift _) fun o =>
        fillAllLoopU_keeps inj fuel o

private theorem fillAllCellsU_keeps {κ : Type} (inj : α → κ) (fuel : Nat) :
    (fillAllCellsU c inj fuel : MutM (I × List κ) _).Keeps
      fun p => Caught c I α w sz it uw cl p.1 := by
  refine keeps_bind (fillAllLoopU_keeps inj fuel 0) fun o => ?_
  refine keeps_bind (keeps_onFst endU_keeps) fun r => ?_
  cases r with
  | none => exact keeps_pure _
  | some v => exact keeps_onSnd _

private theorem doEachLoopU_keeps {σ : Type} (f : FnMut σ (Vector α w) Unit) : ∀ (fuel : Nat)
    (st : σ), (doEachLoopU c f fuel st : MutM I _).Keeps (Caught c I α w sz it uw cl)
  | 0, _ => keeps_lift _
  | fuel + 1, st => by
    refine keeps_bind nextU_keeps fun r => ?_
    cases r with
    | none => exact keeps_pure _
    | some v => exact keeps_bind (keeps_lift _) fun p => doEachLoopU_keeps f fuel p.2

private theorem reduceLoopU_keeps {A σ : Type} (f : σ → A → Vector α w → Res (A × σ)) :
    ∀ (fuel : Nat) (a : A) (st : σ),
      (reduceLoopU c f fuel a st : MutM I _).Keeps (Caught c I α w sz it uw cl)
  | 0, _, _ => keeps_lift _
  | fuel + 1, a, st => by
    refine keeps_bind nextU_keeps fun r => ?_
    cases r with
    | none => exact keeps_pure _
    | some v => exact keeps_bind (keeps_lift _) fun p => reduceLoopU_keeps f fuel p.1 p.2

/-- **C138**: an iterator which a consumer was given, after the consumer returned or panicked, is
one of those covered, whatever closure the consumer was given. -/
theorem C138_after [Packable α] (h : Caught c I α w sz it uw cl x) (fuel : Nat) :
    (∀ buf, Caught c I α w sz it uw cl (scalarFillU c fuel (x, buf)).2.1) ∧
    (∀ buf, Caught c I α w sz it uw cl (scalarFillAllU c fuel (x, buf)).2.1) ∧
    Caught c I α w sz it uw cl (scalarCollectU c fuel x).2 ∧
    Caught c I α w sz it uw cl (scalarCollectAllU c fuel x).2 ∧
    (∀ (σ : Type) (st : σ) (f : FnMut σ (Vector α w) Unit),
      Caught c I α w sz it uw cl (simdDoEachU c fuel st f x).2) ∧
    (∀ (A σ : Type) (a : A) (st : σ) (f : σ → A → Vector α w → Res (A × σ)),
      Caught c I α w sz it uw cl (simdReduceU c fuel a st f x).2) := by
  refine ⟨fun buf => ?_, fun buf => ?_, ?_, ?_, fun σ st f => ?_, fun A σ a st f => ?_⟩
  · have : (scalarFillU c fuel : MutM (I × List α) _).Keeps
        fun p => Caught c I α w sz it uw cl p.1 := by
      refine keeps_bind (fillLoopU_keeps _ _ _) fun p => ?_
      refine keeps_bind (keeps_onFst endU_keeps) fun r => ?_
      cases r with
      | none => exact keeps_pure _
      | some q =>
        obtain ⟨o, last⟩ := p
        obtain ⟨v, n⟩ := q
        show MutM.Keeps _ (if o > 0 then _ else _)
        by_cases ho : o > 0
        · rw [if_pos ho]
          exact keeps_bind (keeps_lift _) fun _ => keeps_bind (keeps_onSnd _) fun _ =>
            keeps_bind (keeps_lift _) fun _ => keeps_onSnd _
        · rw [if_neg ho]
          exact keeps_bind (keeps_lift _) fun k => fillTailLoopU_keeps _ _ _ _ _
    exact this (x, buf) h
  · exact fillAllCellsU_keeps id fuel (x, buf) h
  · have : (scalarCollectU c fuel : MutM I _).Keeps (Caught c I α w sz it uw cl) := by
      refine keeps_bind keeps_get fun _ => keeps_bind (keeps_lift _) fun ret => ?_
      refine keeps_bind (collectLoopU_keeps _ _ _ _) fun p => ?_
      refine keeps_bind endU_keeps fun r => ?_
      cases r with
      | none => exact keeps_bind keeps_get fun _ => keeps_lift _
      | some q => exact keeps_lift _
    exact this x h
  · have : (scalarCollectAllU c fuel : MutM I _).Keeps (Caught c I α w sz it uw cl) :=
      keeps_bind keeps_get fun _ => keeps_bind (keeps_lift _) fun ret =>
        keeps_bind (keeps_withLocal _ (fillAllCellsU_keeps some fuel)) fun _ => keeps_pure _
    exact this x h
  · have : (simdDoEachU c fuel st f : MutM I _).Keeps (Caught c I α w sz it uw cl) := by
      refine keeps_bind (doEachLoopU_keeps f fuel st) fun st => keeps_bind endU_keeps fun r => ?_
      cases r with
      | none => exact keeps_pure _
      | some q => exact keeps_bind (keeps_lift _) fun _ => keeps_pure _
    exact this x h
  · have : (simdReduceU c fuel a st f : MutM I _).Keeps (Caught c I α w sz it uw cl) := by
      refine keeps_bind (reduceLoopU_keeps f fuel a st) fun st => keeps_bind endU_keeps fun r => ?_
      cases r with
      | none => exact keeps_pure _
      | some q => exact keeps_lift _
    exact this x h

end

section
variable {Z γ : Type} {zi : SIMDZippedIterator Z γ} {uw : UnwindZ Z γ} {cl : Closures Z} {z : Z}

/-- **C138**: zips. -/
theorem C138_zip_methods (hd : c.debug = true) (h : CaughtZip c Z γ zi uw cl z) :
    (SIMDZippedIterator.next c z).isSafe ∧ (SIMDZippedIterator.end_ c z).isSafe ∧
    (∀ k, (SIMDZippedIterator.advance c z k).isSafe) ∧ (zfinalize c z).isSafe ∧
    (SIMDZippedIterator.len c z).isSafe ∧ (SIMDZippedIterator.scalarPos c z).isSafe ∧
    (SIMDZippedIterator.scalarLen c z).isSafe ∧
    (∀ (fuel : Nat) (σ : Type) (st : σ) (f : FnMut σ γ Unit), SafeFn f →
      (zsimdDoEach c fuel z st f).isSafe) ∧
    (∀ (fuel : Nat) (A σ : Type) (a : A) (st : σ) (f : σ → A → γ → Res (A × σ)), SafeFn2 f →
      (zsimdReduce c fuel z a st f).isSafe) := by
  obtain ⟨P, h1, h2⟩ := caughtZip_sturdy hd h
  replace h1 := h1.safe
  exact ⟨(h1.next z h2).isSafe, (h1.end_ z h2).isSafe, fun k => (h1.advance z k h2).isSafe,
    (zfinalize_ensures hd h1 z h2).isSafe, (h1.len z h2).isSafe, (h1.scalarPos z h2).isSafe,
    (h1.scalarLen z h2).isSafe,
    fun fuel σ st f hf => (C79_zip_do_each h1 hf fuel z st h2).isSafe,
    fun fuel A σ a st f hf => (C79_zip_reduce h1 hf fuel z a st h2).isSafe⟩

private theorem znextU_keeps : (UnwindZ.nextU c : MutM Z _).Keeps (CaughtZip c Z γ zi uw cl) :=
  fun _ h => h.next

private theorem zendU_keeps : (UnwindZ.endU c : MutM Z _).Keeps (CaughtZip c Z γ zi uw cl) :=
  fun _ h => h.end_

private theorem zdoEachLoopU_keeps {σ : Type} (f : FnMut σ γ Unit) : ∀ (fuel : Nat)
    (st : σ), (zdoEachLoopU c f fuel st : MutM Z _).Keeps (CaughtZip c Z γ zi uw cl)
  | 0, _ => keeps_lift _
  | fuel + 1, st => by
    refine keeps_bind znextU_keeps fun r => ?_
    cases r with
    | none => exact keeps_pure _
    | some v => exact keeps_bind (keeps_lift _) fun p => zdoEachLoopU_keeps f fuel p.2

private theorem zreduceLoopU_keeps {A σ : Type} (f : σ → A → γ → Res (A × σ)) :
    ∀ (fuel : Nat) (a : A) (st : σ),
      (zreduceLoopU c f fuel a st : MutM Z _).Keeps (CaughtZip c Z γ zi uw cl)
  | 0, _, _ => keeps_lift _
  | fuel + 1, a, st => by
    refine keeps_bind znextU_keeps fun r => ?_
    cases r with
    | none => exact keeps_pure _
    | some v => exact keeps_bind (keeps_lift _) fun p => zreduceLoopU_keeps f fuel p.1 p.2

/-- **C138**: a zip after a consumer returned or panicked. -/
theorem C138_zip_after (h : CaughtZip c Z γ zi uw cl z) (fuel : Nat) :
    (∀ (σ : Type) (st : σ) (f : FnMut σ γ Unit),
      CaughtZip c Z γ zi uw cl (zsimdDoEachU c fuel st f z).2) ∧
    (∀ (A σ : Type) (a : A) (st : σ) (f : σ → A → γ → Res (A × σ)),
      CaughtZip c Z γ zi uw cl (zsimdReduceU c fuel a st f z).2) := by
  refine ⟨fun σ st f => ?_, fun A σ a st f => ?_⟩
  · have : (zsimdDoEachU c fuel st f : MutM Z _).Keeps (CaughtZip c Z γ zi uw cl) := by
      refine keeps_bind (zdoEachLoopU_keeps f fuel st) fun st => keeps_bind zendU_keeps fun r => ?_
      cases r with
      | none => exact keeps_pure _
      | some q => exact keeps_bind (keeps_lift _) fun _ => keeps_pure _
    exact this z h
  · have : (zsimdReduceU c fuel a st f : MutM Z _).Keeps (CaughtZip c Z γ zi uw cl) := by
      refine keeps_bind (zreduceLoopU_keeps f fuel a st) fun st => keeps_bind zendU_keeps fun r => ?_
      cases r with
      | none => exact keeps_pure _
      | some q => exact keeps_lift _
    exact this z h

end

/-- **C138**: `simd_for_each` on a slice, in every state of the iterator, hence also again after
its closure panicked: no undefined behaviour. -/
theorem C138_for_each {α σ σ' : Type} {w : Nat} [Packable α] (hd : c.debug = true)
    (x : SIMDIter (Slice α w) α w) (f : FnMut σ (Vector α w) (Vector α w))
    (g : FnMut σ' (Vector α w) (Vector α w)) (hg : SafeFn g) (fuel fuel' : Nat) (st : σ) (st' : σ') :
    (simdForEach c fuel' st' g (simdForEach c fuel st f x).2).1.isSafe ∧
    IsCaught c (simdForEach c fuel st f x).2 :=
  ⟨C79_slice_for_each hd (simdForEach c fuel st f x).2.data.elems
    (simdForEach c fuel st f x).2.default (simdForEach c fuel st f x).2.position g hg fuel' st',
    .slice _⟩

/-- A map whose closure panics at the second of three vectors; the panic is caught, the variable it
captured is changed, and the rest is collected. -/
example : ∃ x : SIMDMap (SIMDIter (Slice (BitVec 8) 2) (BitVec 8) 2) Nat (BitVec 8) 2 (BitVec 8) 2,
    IsCaught debug64 x ∧ (scalarCollectU debug64 9 x).1 = panic ∧
    ∃ y, IsCaught debug64 y ∧ Closures.differ (scalarCollectU debug64 9 x).2 y ∧
      (scalarCollectU debug64 9 y).1 = ok [some 6, some 7, none, none, none, none] := by
  let f : FnMut Nat (Vector (BitVec 8) 2) (Vector (BitVec 8) 2) := fun n v =>
    if n = 1 then panic else ok (v.map (· + 1), n + 1)
  have hf : SafeFn f := by
    intro n v
    show (if n = 1 then _ else _ : Res _).isSafe
    by_cases h : n = 1
    · rw [if_pos h]; trivial
    · rw [if_neg h]; trivial
  let x := simdMap (simdIter [1#8, 2, 3, 4, 5, 6] #v[0, 0]) 0 f
  have hx : IsCaught debug64 x := .map 0 f (.slice _) hf
  refine ⟨x, hx, by decide +kernel, { (scalarCollectU debug64 9 x).2 with st := 2 }, ?_, ?_, ?_⟩
  · exact ((C138_after hx 9).2.2.1).captured ⟨rfl, rfl⟩
  · exact ⟨rfl, rfl⟩
  · decide +kernel

/-- An adapter whose `end` panics, since more scalars are left than it has lanes: the scalars it has
taken are gone. -/
example : (Unwind.endU debug64 (⟨[1#8, 2, 3, 4], #v[0, 0], #v[0, 0], 2⟩ : SIMDAdapter (BitVec 8) 2)) =
    (panic, ⟨[3, 4], #v[2, 1], #v[0, 0], 2⟩) := by decide +kernel

end Faster
