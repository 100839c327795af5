import Verif.Lemmas.Stream2
/- `scalar_fill_all` and `scalar_collect_all`. -/
namespace Faster
open Res SIMDSized SIMDIterable SIMDIterator

section
variable {I α : Type} {w : Nat} [SIMDSized I] [SIMDIterator I α w]

theorem fillAllLoop_runs {κ : Type} {c : Cfg} (inj : α → κ)
    {it : I} {vs : List (Vector α w)} {r : Res I} (h : Runs c it vs r) :
    ∀ (fuel : Nat) (buf : List κ) (o : Nat), vs.length < fuel →
      o + vs.length * w ≤ buf.length → o + vs.length * w < c.usize →
      fillAllLoop c inj fuel it buf o =
        r >>= fun it' => ok (it', splice buf o ((lanes vs).map inj), o + vs.length * w) := by
  induction h with
  | done h =>
    intro fuel buf o hf hb hu
    obtain ⟨f, rfl⟩ : ∃ f, fuel = f + 1 := ⟨fuel - 1, by omega⟩
    simp [fillAllLoop, h, splice_nil]
  | @fail it r h hr =>
    intro fuel buf o hf hb hu
    obtain ⟨f, rfl⟩ : ∃ f, fuel = f + 1 := ⟨fuel - 1, by omega⟩
    simp only [fillAllLoop, h]
    cases r with
    | ok a => exact absurd rfl (hr a)
    | _ => simp [castFail]
  | @step it it1 v vs r h1 h2 ih =>
    intro fuel buf o hf hb hu
    obtain ⟨f, rfl⟩ : ∃ f, fuel = f + 1 := ⟨fuel - 1, by omega⟩
    simp only [List.length_cons, Nat.succ_mul] at hf hb hu
    simp only [fillAllLoop, h1, ok_bind]
    rw [storeUnchecked_ok (by omega)]
    simp only [ok_bind]
    rw [uadd_ok (by omega)]
    simp only [ok_bind]
    have hl : (splice buf o (Vector.map inj v).toList).length = buf.length :=
      splice_length _ _ _ (by simp; omega)
    rw [ih f _ _ (by omega) (by omega) (by omega)]
    congr 1; funext it'
    have e : o + w = o + (Vector.map inj v).toList.length := by simp
    have ll := lanes_length vs
    rw [e, splice_splice]
    · simp only [lanes_cons, List.map_append, Vector.toList_map, List.length_cons, Nat.succ_mul,
        List.length_map, Vector.length_toList]
      refine congrArg ok (Prod.ext rfl (Prod.ext rfl ?_))
      simp; omega
    · simp [ll]; omega

theorem fillAllLoop_runs_short {κ : Type} {c : Cfg} (inj : α → κ)
    {it : I} {vs : List (Vector α w)} {r : Res I} (h : Runs c it vs r) :
    ∀ (fuel : Nat) (buf : List κ) (o : Nat), vs.length < fuel →
      o ≤ buf.length → buf.length < o + vs.length * w → buf.length + w < c.usize →
      fillAllLoop c inj fuel it buf o = badAccess c := by
  induction h with
  | done h => intro fuel buf o hf h1 h2 h3; simp at h2; omega
  | fail h hr => intro fuel buf o hf h1 h2 h3; simp at h2; omega
  | @step it it1 v vs r h1 h2 ih =>
    intro fuel buf o hf hb1 hb2 hu
    obtain ⟨f, rfl⟩ : ∃ f, fuel = f + 1 := ⟨fuel - 1, by omega⟩
    simp only [List.length_cons, Nat.succ_mul] at hf hb2
    simp only [fillAllLoop, h1, ok_bind]
    by_cases hs : o + w ≤ buf.length
    · rw [storeUnchecked_ok hs]
      simp only [ok_bind]
      rw [uadd_ok (by omega)]
      simp only [ok_bind]
      have hl : (splice buf o (Vector.map inj v).toList).length = buf.length :=
        splice_length _ _ _ (by simp; omega)
      exact ih f _ _ (by omega) (by omega) (by omega) (by omega)
    · rw [storeUnchecked_bad hb1 (by omega)]
      simp

theorem lanes_map_inj_length {κ : Type} (inj : α → κ) (vs : List (Vector α w)) :
    ((lanes vs).map inj).length = vs.length * w := by simp [lanes_length]

theorem scalarFillAll_emits {κ : Type} {c : Cfg} (inj : α → κ) {it : I} {vs : List (Vector α w)}
    {e : Res (Option (Vector α w × Nat) × I)}
    (h : Emits c it vs e) (fuel : Nat) (buf : List κ) (hf : vs.length < fuel)
    (hb : vs.length * w ≤ buf.length) (hu : vs.length * w < c.usize)
    (ht : ∀ p n it', e = ok (some (p, n), it') → vs.length * w + w ≤ buf.length) :
    scalarFillAllCells c inj fuel it buf = e >>= fun x =>
      ok (x.2, splice buf 0 ((lanes (withTail vs x.1)).map inj)) := by
  obtain ⟨r, h1, h2⟩ := h
  simp only [scalarFillAllCells]
  rw [fillAllLoop_runs inj h1 fuel buf 0 hf (by omega) (by omega)]
  cases r with
  | ok it1 =>
    simp only [ok_bind] at h2
    simp only [ok_bind, ← h2]
    rcases e with ⟨_ | ⟨p, n⟩, it2⟩ | _ | _ | _
    · simp [withTail]
    · have hb2 := ht p n it2 rfl
      have hl : (splice buf 0 ((lanes vs).map inj)).length = buf.length :=
        splice_length _ _ _ (by simp [lanes_length]; omega)
      simp only [ok_bind]
      rw [storeUnchecked_ok (by omega)]
      have e2 := splice_splice buf 0 ((lanes vs).map inj) (p.map inj).toList
        (by simp [lanes_length]; omega)
      rw [lanes_map_inj_length] at e2
      simp only [ok_bind, e2, withTail]
      simp [Vector.toList_map]
    all_goals simp
  | _ => simp [h2]

/-- `scalar_fill_all` into a buffer which is too short. -/
theorem scalarFillAll_short {κ : Type} {c : Cfg} (inj : α → κ) {it it' : I}
    {vs : List (Vector α w)} {t : Option (Vector α w × Nat)}
    (h : Emits c it vs (ok (t, it'))) (fuel : Nat) (buf : List κ) (hf : vs.length < fuel)
    (hb : buf.length < (withTail vs t).length * w)
    (hu : vs.length * w + w < c.usize) (hu2 : buf.length + w < c.usize) :
    scalarFillAllCells c inj fuel it buf = badAccess c := by
  obtain ⟨r, h1, h2⟩ := h
  simp only [scalarFillAllCells]
  by_cases hs : vs.length * w ≤ buf.length
  · rw [fillAllLoop_runs inj h1 fuel buf 0 hf (by omega) (by omega)]
    cases r with
    | ok it1 =>
      simp only [ok_bind] at h2
      simp only [ok_bind, ← h2]
      rcases t with _ | ⟨p, n⟩
      · simp [withTail] at hb; omega
      · simp only [withTail, Option.toList_some, List.map_cons, List.map_nil, List.length_append,
          List.length_cons, List.length_nil, Nat.zero_add, Nat.succ_mul] at hb
        have hl : (splice buf 0 ((lanes vs).map inj)).length = buf.length :=
          splice_length _ _ _ (by simp [lanes_length]; omega)
        simp only []
        rw [storeUnchecked_bad (by omega) (by omega)]
        simp
    | _ => simp at h2
  · rw [fillAllLoop_runs_short inj h1 fuel buf 0 hf (by omega) (by omega) hu2]
    simp

end
end Faster
