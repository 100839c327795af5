import Verif.Lemmas.Iter
/-
`SIMDMap` over any source.
-/
namespace Faster
open Res SIMDSized SIMDIterable SIMDIterator

/-- Outputs of the closure before it failed, and its state or failure. -/
def mapRun {σ β γ : Type} (f : FnMut σ β γ) : σ → List β → List γ × Res σ
  | st, [] => ([], ok st)
  | st, v :: vs =>
    match f st v with
    | ok (u, st') => (u :: (mapRun f st' vs).1, (mapRun f st' vs).2)
    | r => ([], r.castFail)

theorem callAll_mapRun {σ β γ : Type} (f : FnMut σ β γ) (st : σ) (vs : List β) :
    callAll f st vs = (mapRun f st vs).2 >>= fun st' => ok ((mapRun f st vs).1, st') := by
  induction vs generalizing st with
  | nil => simp [callAll, mapRun]
  | cons v vs ih =>
    simp only [callAll, mapRun]
    cases f st v with
    | ok p =>
      simp only [ok_bind, ih]
      cases (mapRun f p.2 vs).2 <;> rfl
    | _ => rfl

theorem mapRun_length_le {σ β γ : Type} (f : FnMut σ β γ) (st : σ) (vs : List β) :
    (mapRun f st vs).1.length ≤ vs.length := by
  induction vs generalizing st with
  | nil => simp [mapRun]
  | cons v vs ih =>
    simp only [mapRun]
    cases f st v with
    | ok p => simpa using ih p.2
    | _ => simp

theorem mapRun_length {σ β γ : Type} (f : FnMut σ β γ) (st st' : σ) (vs : List β)
    (h : (mapRun f st vs).2 = ok st') : (mapRun f st vs).1.length = vs.length := by
  induction vs generalizing st with
  | nil => simp [mapRun]
  | cons v vs ih =>
    simp only [mapRun] at h ⊢
    cases hf : f st v with
    | ok p =>
      simp only [hf] at h ⊢
      simpa using ih p.2 h
    | _ => simp [hf, castFail] at h

theorem callAll_append {σ β γ : Type} (f : FnMut σ β γ) (st : σ) (vs us : List β) :
    callAll f st (vs ++ us) =
      callAll f st vs >>= fun p => callAll f p.2 us >>= fun q => ok (p.1 ++ q.1, q.2) := by
  induction vs generalizing st with
  | nil =>
    simp only [List.nil_append, callAll, ok_bind]
    cases callAll f st us <;> rfl
  | cons v vs ih =>
    simp only [List.cons_append, callAll, bind_assoc, ok_bind]
    congr 1; funext p
    rw [ih p.2]
    simp

theorem callAll_length {σ β γ : Type} (f : FnMut σ β γ) (st : σ) (vs : List β) {us : List γ}
    {st' : σ} (h : callAll f st vs = ok (us, st')) : us.length = vs.length := by
  rw [callAll_mapRun] at h
  cases h2 : (mapRun f st vs).2 with
  | ok s =>
    rw [h2] at h
    simp only [ok_bind, ok.injEq, Prod.mk.injEq] at h
    rw [← h.1, mapRun_length f st s vs h2]
  | _ => rw [h2] at h; cases h

section
variable {I σ α β : Type} {w w' : Nat} [SIMDSized I] [SIMDIterator I α w] [Packable α] [Packable β]

theorem simdMap_runs {c : Cfg} (f : FnMut σ (Vector α w) (Vector β w')) {it : I}
    {vs : List (Vector α w)} {r : Res I} (h : Runs c it vs r) : ∀ (st : σ),
    Runs c (⟨it, st, f⟩ : SIMDMap I σ α w β w') (mapRun f st vs).1
      ((mapRun f st vs).2 >>= fun st' => r >>= fun it' => ok ⟨it', st', f⟩) := by
  induction h with
  | done h =>
    intro st
    refine Runs.done ?_
    simp [SIMDIterable.next, SIMDMap.next, h]
  | @fail it r h hr =>
    intro st
    have e : next c (⟨it, st, f⟩ : SIMDMap I σ α w β w') = r.castFail := by
      simp only [SIMDIterable.next, SIMDMap.next, h]
      cases r with
      | ok a => exact absurd rfl (hr a)
      | _ => rfl
    have := Runs.fail e (by
      cases r with
      | ok a => exact absurd rfl (hr a)
      | _ => simp [castFail])
    simp only [mapRun, ok_bind]
    cases r with
    | ok a => exact absurd rfl (hr a)
    | _ => exact this
  | @step it it1 v vs r h1 h2 ih =>
    intro st
    have e : next c (⟨it, st, f⟩ : SIMDMap I σ α w β w') =
        f st v >>= fun p => ok (some p.1, ⟨it1, p.2, f⟩) := by
      simp only [SIMDIterable.next, SIMDMap.next, h1, ok_bind]
    simp only [mapRun]
    cases hf : f st v with
    | ok p =>
      simp only [hf, ok_bind] at e
      exact Runs.step e (ih p.2)
    | _ =>
      simp only [hf, panic_bind, ub_bind, hang_bind] at e
      exact Runs.fail e (by simp)

/-- The closure applied to the outcome of `end`. -/
def mapTail (f : FnMut σ (Vector α w) (Vector β w')) (it' : I) (st' : σ) :
    Option (Vector α w × Nat) → Res (Option (Vector β w' × Nat) × SIMDMap I σ α w β w')
  | none => ok (none, ⟨it', st', f⟩)
  | some (p, n) => f st' p >>= fun q =>
    ok (some (q.1, n * Packable.size α / Packable.size β), ⟨it', q.2, f⟩)

/-- `simd_map` over a source whose `end` succeeds. -/
theorem simdMap_emits {c : Cfg} (f : FnMut σ (Vector α w) (Vector β w')) {it it' : I}
    {vs : List (Vector α w)} {t : Option (Vector α w × Nat)} (h : Emits c it vs (ok (t, it')))
    (hs : 0 < Packable.size β) (hu : ∀ p n, t = some (p, n) → n * Packable.size α < c.usize)
    (st : σ) :
    Emits c (⟨it, st, f⟩ : SIMDMap I σ α w β w') (mapRun f st vs).1
      ((mapRun f st vs).2 >>= fun st' => mapTail f it' st' t) := by
  obtain ⟨r, h1, h2⟩ := h
  refine ⟨_, simdMap_runs f h1 st, ?_⟩
  rw [bind_assoc]
  congr 1; funext st'
  cases r with
  | ok it1 =>
    simp only [ok_bind] at h2
    simp only [ok_bind, SIMDIterator.end_, SIMDMap.end_, ← h2]
    rcases t with _ | ⟨p, n⟩
    · rfl
    · simp only []
      rw [umul_ok (hu p n rfl)]
      simp only [ok_bind]
      rw [udiv_ok hs]
      simp [mapTail]
  | _ => simp at h2

theorem unpad_concat {α : Type} {w : Nat} (pad : Nat) (us : List (Vector α w)) (u : Vector α w) :
    unpad pad (us ++ [u]) = lanes us ++ u.toList.drop pad := by
  simp [unpad]

theorem unpad_zero {α : Type} {w : Nat} (us : List (Vector α w)) : unpad 0 us = lanes us := by
  rcases List.eq_nil_or_concat us with rfl | ⟨l, u, rfl⟩
  · rfl
  · rw [List.concat_eq_append, unpad_concat]; simp

/-- Empty lanes in front of the last vector of a pass. -/
def padOf {α : Type} {w : Nat} (t : Option (Vector α w × Nat)) : Nat := (t.map (·.2)).getD 0

/-- `scalar_collect` after `simd_map` over any source. -/
theorem scalarCollect_map {c : Cfg} (f : FnMut σ (Vector α w) (Vector β w')) {it it' : I}
    {vs : List (Vector α w)} {t : Option (Vector α w × Nat)} (h : Emits c it vs (ok (t, it')))
    {L : Nat} (hw' : 0 < w') (hs : 0 < Packable.size β)
    (hL : SIMDIterable.len c it = ok L) (hv : vs.length ≤ L)
    (hL2 : t = none → SIMDIterable.len c it' = ok vs.length)
    (hn : ∀ p n, t = some (p, n) → n * Packable.size α < c.usize ∧
      n * Packable.size α / Packable.size β ≤ w')
    (hu : (L + 1) * w' < c.usize) (fuel : Nat) (hf : vs.length < fuel) (st : σ) :
    scalarCollect c fuel (simdMap it st f) =
      callAll f st (withTail vs t) >>= fun p => ok (⟨it', p.2, f⟩,
        (unpad (padOf t * Packable.size α / Packable.size β) p.1).map some) := by
  have hm := simdMap_emits f h hs (fun p n e => (hn p n e).1) st
  have hlen := mapRun_length_le f st vs
  rw [simdMap, scalarCollect_emits hm fuel (by omega) hw' (L := L) (by exact hL) (by omega) hu]
  · rw [withTail, callAll_append, callAll_mapRun f st vs]
    rcases t with _ | ⟨p, n⟩
    · simp only [mapTail, bind_assoc, ok_bind, Option.toList_none, List.map_nil, callAll, padOf,
        Option.map_none, Option.getD_none, Nat.zero_mul, Nat.zero_div, unpad_zero,
        List.append_nil]
    · simp only [mapTail, bind_assoc, ok_bind, Option.toList_some, List.map_cons, List.map_nil, callAll,
        padOf, Option.map_some, Option.getD_some, unpad_concat]
  · intro p n it2 e
    rcases t with _ | ⟨p1, n1⟩
    · cases h2 : (mapRun f st vs).2 with
      | ok a => simp [mapTail, h2] at e
      | _ => simp [mapTail, h2] at e
    · cases h2 : (mapRun f st vs).2 with
      | ok a =>
        simp only [mapTail, h2, ok_bind] at e
        cases h3 : f a p1 with
        | ok q =>
          simp only [h3, ok_bind, ok.injEq, Prod.mk.injEq, Option.some.injEq] at e
          rw [← e.1.2]
          exact (hn p1 n1 rfl).2
        | _ => simp [h3] at e
      | _ => simp [mapTail, h2] at e
  · intro it2 e
    cases h2 : (mapRun f st vs).2 with
    | ok a =>
      rw [mapRun_length f st a vs h2]
      rcases t with _ | ⟨p1, n1⟩
      · simp only [mapTail, h2, ok_bind, ok.injEq, Prod.mk.injEq, true_and] at e
        rw [← e]
        exact hL2 rfl
      · simp only [mapTail, h2, ok_bind] at e
        cases h3 : f a p1 with
        | ok q => simp [h3] at e
        | _ => simp [h3] at e
    | _ => simp [mapTail, h2] at e

/-- `scalar_fill` after `simd_map` over any source. -/
theorem scalarFill_map {c : Cfg} (f : FnMut σ (Vector α w) (Vector β w')) {it it' : I}
    {vs : List (Vector α w)} {t : Option (Vector α w × Nat)} (h : Emits c it vs (ok (t, it')))
    (hw' : 0 < w') (hs : 0 < Packable.size β) (buf : List β)
    (hb : vs.length * w' ≤ buf.length)
    (hn : ∀ p n, t = some (p, n) → n * Packable.size α < c.usize ∧
      n * Packable.size α / Packable.size β ≤ w' ∧
      vs.length * w' + w' ≤ buf.length + n * Packable.size α / Packable.size β)
    (hu : (vs.length + 1) * w' < c.usize) (fuel : Nat) (hf : vs.length < fuel) (st : σ) :
    scalarFill c fuel (simdMap it st f) buf =
      callAll f st (withTail vs t) >>= fun p => ok (⟨it', p.2, f⟩,
        splice buf 0 (unpad (padOf t * Packable.size α / Packable.size β) p.1)) := by
  have hm := simdMap_emits f h hs (fun p n e => (hn p n e).1) st
  have hlen := mapRun_length_le f st vs
  have hmul : (mapRun f st vs).1.length * w' ≤ vs.length * w' := Nat.mul_le_mul_right w' hlen
  rw [Nat.succ_mul] at hu
  rw [simdMap, scalarFill_emits hm fuel buf (by omega) hw' (by omega) (by omega)]
  · rw [withTail, callAll_append, callAll_mapRun f st vs]
    rcases t with _ | ⟨p, n⟩
    · simp only [mapTail, bind_assoc, ok_bind, Option.toList_none, List.map_nil, callAll, padOf,
        Option.map_none, Option.getD_none, Nat.zero_mul, Nat.zero_div, unpad_zero,
        List.append_nil]
    · simp only [mapTail, bind_assoc, ok_bind, Option.toList_some, List.map_cons, List.map_nil, callAll,
        padOf, Option.map_some, Option.getD_some, unpad_concat]
  · intro p n it2 e
    rcases t with _ | ⟨p1, n1⟩
    · cases h2 : (mapRun f st vs).2 with
      | ok a => simp [mapTail, h2] at e
      | _ => simp [mapTail, h2] at e
    · cases h2 : (mapRun f st vs).2 with
      | ok a =>
        simp only [mapTail, h2, ok_bind] at e
        cases h3 : f a p1 with
        | ok q =>
          simp only [h3, ok_bind, ok.injEq, Prod.mk.injEq, Option.some.injEq] at e
          rw [← e.1.2]
          have := hn p1 n1 rfl
          omega
        | _ => simp [h3] at e
      | _ => simp [mapTail, h2] at e

end
end Faster
