import Verif.Lemmas.Basic
/-
A pass over an iterator as a list of vectors plus an outcome, and what the
consumers (`simd_reduce`, `simd_do_each`, `scalar_fill`, `scalar_collect`)
compute from it.
-/
namespace Faster
open Res SIMDSized SIMDIterable SIMDIterator

/-- A failing outcome at another type. -/
def Res.castFail {α β : Type} : Res α → Res β
  | ok _ => hang
  | panic => panic
  | ub => ub
  | hang => hang

section
variable {I α : Type} {w : Nat} [SIMDSized I] [SIMDIterator I α w]

/-- Calling `next` until it returns `None` or fails produces the vectors `vs`;
`r` is the iterator afterwards, or the failure. -/
inductive Runs (c : Cfg) : I → List (Vector α w) → Res I → Prop where
  | done {it it' : I} : next c it = ok (none, it') → Runs c it [] (ok it')
  | fail {it : I} {r : Res (Option (Vector α w) × I)} : next c it = r → (∀ x, r ≠ ok x) →
      Runs c it [] r.castFail
  | step {it it1 : I} {v : Vector α w} {vs : List (Vector α w)} {r : Res I} :
      next c it = ok (some v, it1) → Runs c it1 vs r → Runs c it (v :: vs) r

/-- A pass by `next` followed by `end`: the vectors from `next`, then the
outcome of `end`. -/
def Emits (c : Cfg) (it : I) (vs : List (Vector α w))
    (e : Res (Option (Vector α w × Nat) × I)) : Prop :=
  ∃ r, Runs c it vs r ∧ e = r >>= fun it' => end_ c it'

/-- The vectors and the outcome are determined. -/
theorem Runs.unique {c : Cfg} {it : I} {vs us : List (Vector α w)} {r s : Res I}
    (h : Runs c it vs r) (h' : Runs c it us s) : vs = us ∧ r = s := by
  induction h generalizing us s with
  | done h =>
    cases h' with
    | done h2 => rw [h] at h2; simp only [ok.injEq, Prod.mk.injEq, true_and] at h2; simp [h2]
    | fail h2 hr => rw [h] at h2; exact absurd h2.symm (hr _)
    | step h2 _ => rw [h] at h2; simp at h2
  | fail h hr =>
    cases h' with
    | done h2 => rw [h] at h2; exact absurd h2 (hr _)
    | fail h2 _ => rw [h] at h2; simp [h2]
    | step h2 _ => rw [h] at h2; exact absurd h2 (hr _)
  | step h1 h2 ih =>
    cases h' with
    | done h3 => rw [h1] at h3; simp at h3
    | fail h3 hr => rw [h1] at h3; exact absurd h3.symm (hr _)
    | step h3 h4 =>
      rw [h1] at h3
      simp only [ok.injEq, Prod.mk.injEq, Option.some.injEq] at h3
      obtain ⟨rfl, rfl⟩ := h3
      obtain ⟨rfl, rfl⟩ := ih h4
      exact ⟨rfl, rfl⟩

theorem reduceLoop_runs {A σ : Type} {c : Cfg} (func : σ → A → Vector α w → Res (A × σ))
    {it : I} {vs : List (Vector α w)} {r : Res I} (h : Runs c it vs r) :
    ∀ (fuel : Nat) (acc : A) (st : σ), vs.length < fuel →
      reduceLoop c func fuel it acc st =
        (vs.foldlM (fun (p : A × σ) v => func p.2 p.1 v) (acc, st)) >>= fun p =>
          r >>= fun it' => ok (it', p.1, p.2) := by
  induction h with
  | done h =>
    intro fuel acc st hf
    obtain ⟨f, rfl⟩ : ∃ f, fuel = f + 1 := ⟨fuel - 1, by omega⟩
    simp [reduceLoop, h]
  | @fail it r h hr =>
    intro fuel acc st hf
    obtain ⟨f, rfl⟩ : ∃ f, fuel = f + 1 := ⟨fuel - 1, by omega⟩
    simp only [reduceLoop, h]
    cases r with
    | ok a => exact absurd rfl (hr a)
    | _ => simp [castFail]
  | @step it it1 v vs r h1 h2 ih =>
    intro fuel acc st hf
    obtain ⟨f, rfl⟩ : ∃ f, fuel = f + 1 := ⟨fuel - 1, by omega⟩
    simp only [reduceLoop, h1, ok_bind, List.foldlM_cons, bind_assoc]
    congr 1
    funext p
    exact ih f p.1 p.2 (by simp at hf; omega)

theorem doEachLoop_runs {σ : Type} {c : Cfg} (func : FnMut σ (Vector α w) Unit)
    {it : I} {vs : List (Vector α w)} {r : Res I} (h : Runs c it vs r) :
    ∀ (fuel : Nat) (st : σ), vs.length < fuel →
      doEachLoop c func fuel it st =
        (callAll func st vs) >>= fun p => r >>= fun it' => ok (it', p.2) := by
  induction h with
  | done h =>
    intro fuel st hf
    obtain ⟨f, rfl⟩ : ∃ f, fuel = f + 1 := ⟨fuel - 1, by omega⟩
    simp [doEachLoop, h, callAll]
  | @fail it r h hr =>
    intro fuel st hf
    obtain ⟨f, rfl⟩ : ∃ f, fuel = f + 1 := ⟨fuel - 1, by omega⟩
    simp only [doEachLoop, h]
    cases r with
    | ok a => exact absurd rfl (hr a)
    | _ => simp [castFail, callAll]
  | @step it it1 v vs r h1 h2 ih =>
    intro fuel st hf
    obtain ⟨f, rfl⟩ : ∃ f, fuel = f + 1 := ⟨fuel - 1, by omega⟩
    simp only [doEachLoop, h1, ok_bind, callAll, bind_assoc]
    congr 1
    funext p
    exact ih f p.2 (by simp at hf; omega)

/-- The vectors a consumer passes to its closure. -/
def withTail (vs : List (Vector α w)) (t : Option (Vector α w × Nat)) : List (Vector α w) :=
  vs ++ t.toList.map (·.1)

theorem simdReduce_emits {A σ : Type} {c : Cfg} (func : σ → A → Vector α w → Res (A × σ))
    {it it' : I} {vs : List (Vector α w)} {t : Option (Vector α w × Nat)}
    (h : Emits c it vs (ok (t, it'))) (fuel : Nat) (acc : A) (st : σ) (hf : vs.length < fuel) :
    simdReduce c fuel it acc st func =
      ((withTail vs t).foldlM (fun (p : A × σ) v => func p.2 p.1 v) (acc, st)) >>= fun p =>
          ok (it', p.1, p.2) := by
  obtain ⟨r, h1, h2⟩ := h
  simp only [simdReduce, reduceLoop_runs func h1 fuel acc st hf, bind_assoc, withTail,
    List.foldlM_append]
  congr 1; funext p
  cases r with
  | ok it1 =>
    simp only [ok_bind] at h2
    simp only [ok_bind, ← h2]
    rcases t with _ | ⟨v, n⟩ <;> simp
  | _ => simp at h2

theorem simdDoEach_emits {σ : Type} {c : Cfg} (func : FnMut σ (Vector α w) Unit)
    {it it' : I} {vs : List (Vector α w)} {t : Option (Vector α w × Nat)}
    (h : Emits c it vs (ok (t, it'))) (fuel : Nat) (st : σ) (hf : vs.length < fuel) :
    simdDoEach c fuel it st func =
      (callAll func st (withTail vs t)) >>= fun p => ok (it', p.2) := by
  obtain ⟨r, h1, h2⟩ := h
  have key : ∀ (st : σ) (us : List (Vector α w)), callAll func st (vs ++ us) =
      callAll func st vs >>= fun p => callAll func p.2 us >>= fun q => ok (p.1 ++ q.1, q.2) := by
    clear hf h1
    intro st us
    induction vs generalizing st with
    | nil =>
      simp only [List.nil_append, callAll, ok_bind]
      cases callAll func st us <;> rfl
    | cons v vs ih =>
      simp only [List.cons_append, callAll, bind_assoc, ok_bind]
      congr 1; funext p
      rw [ih p.2]
      simp
  simp only [simdDoEach, doEachLoop_runs func h1 fuel st hf, bind_assoc, withTail, key]
  congr 1; funext p
  cases r with
  | ok it1 =>
    simp only [ok_bind] at h2
    simp only [ok_bind, ← h2]
    rcases t with _ | ⟨v, n⟩ <;> simp [callAll]
  | _ => simp at h2

/-! ### Stores -/

theorem fillLoop_runs {κ : Type} {c : Cfg} (inj : α → κ)
    {it : I} {vs : List (Vector α w)} {r : Res I} (h : Runs c it vs r) :
    ∀ (fuel : Nat) (buf : List κ) (o : Nat) (last : Vector α w), vs.length < fuel →
      o + vs.length * w ≤ buf.length → o + vs.length * w < c.usize →
      fillLoop c inj fuel it buf o last =
        r >>= fun it' => ok (it', splice buf o ((lanes vs).map inj), o + vs.length * w,
          vs.getLastD last) := by
  induction h with
  | done h =>
    intro fuel buf o last hf hb hu
    obtain ⟨f, rfl⟩ : ∃ f, fuel = f + 1 := ⟨fuel - 1, by omega⟩
    simp [fillLoop, h, splice_nil]
  | @fail it r h hr =>
    intro fuel buf o last hf hb hu
    obtain ⟨f, rfl⟩ : ∃ f, fuel = f + 1 := ⟨fuel - 1, by omega⟩
    simp only [fillLoop, h]
    cases r with
    | ok a => exact absurd rfl (hr a)
    | _ => simp [castFail]
  | @step it it1 v vs r h1 h2 ih =>
    intro fuel buf o last hf hb hu
    obtain ⟨f, rfl⟩ : ∃ f, fuel = f + 1 := ⟨fuel - 1, by omega⟩
    simp only [List.length_cons, Nat.succ_mul] at hf hb hu
    simp only [fillLoop, h1, ok_bind]
    rw [storeUnchecked_ok (by omega)]
    simp only [ok_bind]
    rw [uadd_ok (by omega)]
    simp only [ok_bind]
    have hl : (splice buf o (Vector.map inj v).toList).length = buf.length :=
      splice_length _ _ _ (by simp; omega)
    rw [ih f _ _ _ (by omega) (by omega) (by omega)]
    congr 1; funext it'
    have e : o + w = o + (Vector.map inj v).toList.length := by simp
    have ll := lanes_length vs
    rw [e, splice_splice]
    · simp only [lanes_cons, List.map_append, Vector.toList_map, List.length_cons, Nat.succ_mul,
        List.length_map, Vector.length_toList]
      refine congrArg ok (Prod.ext rfl (Prod.ext rfl (Prod.ext ?_ ?_)))
      · simp; omega
      · cases vs <;> rfl
    · simp [ll]; omega

theorem fillTailLoop_ok {κ : Type} (c : Cfg) (inj : α → κ) (p : Vector α w) (n o : Nat) :
    ∀ (k i : Nat) (buf : List κ), i + k + n = w → o + w ≤ buf.length + n → o + w < c.usize →
    fillTailLoop c inj p n o k i buf =
      ok (splice buf (o + i) ((p.toList.drop (n + i)).map inj)) := by
  intro k
  induction k with
  | zero =>
    intro i buf h1 h2 h3
    simp only [fillTailLoop]
    rw [List.drop_eq_nil_of_le (by simp; omega)]
    simp [splice_nil]
  | succ k ih =>
    intro i buf h1 h2 h3
    simp only [fillTailLoop]
    rw [uadd_ok (by omega)]
    simp only [ok_bind]
    rw [extractUnchecked_ok (by omega)]
    simp only [ok_bind]
    rw [uadd_ok (by omega)]
    simp only [ok_bind]
    rw [indexSet_ok (by omega)]
    simp only [ok_bind]
    rw [ih (i+1) _ (by omega) (by simp; omega) (by omega)]
    congr 1
    apply List.ext_getElem?
    intro j
    rw [splice_getElem? _ _ _ (by simp; omega), splice_getElem? _ _ _ (by simp; omega)]
    simp only [List.length_map, List.length_drop, Vector.length_toList, List.getElem?_map,
      List.getElem?_drop, List.getElem?_set]
    by_cases hj : j < o + i
    · rw [if_pos (by omega), if_pos hj, if_neg (by omega)]
    · by_cases hj2 : j = o + i
      · subst hj2
        rw [if_pos (by omega), if_pos rfl, if_pos (by omega), if_neg (by omega), if_pos (by omega)]
        rw [List.getElem?_eq_getElem (by simp; omega)]
        simp [Nat.add_comm]
      · rw [if_neg (by omega), if_neg hj]
        by_cases hj3 : j < o + i + (w - (n + i))
        · rw [if_pos (by omega), if_pos hj3]; congr 2; omega
        · rw [if_neg (by omega), if_neg hj3, if_neg (by omega)]

theorem getLastD_lanes {α : Type} {w : Nat} (vs : List (Vector α w)) (d : Vector α w)
    (h : vs ≠ []) : lanes vs = lanes vs.dropLast ++ (vs.getLastD d).toList := by
  have e : vs.getLastD d = vs.getLast h := by
    cases vs with
    | nil => exact absurd rfl h
    | cons v vs => rfl
  conv => lhs; rw [← List.dropLast_concat_getLast h]
  rw [lanes_append, e]
  simp

/-- The tail store: after it the buffer holds the lanes of the full vectors
followed by the lanes `n..` of the partial vector. -/
theorem fillTail_ok {κ : Type} (c : Cfg) (inj : α → κ) (p : Vector α w) (n : Nat)
    (vs : List (Vector α w)) (d : Vector α w) (buf : List κ)
    (hw : 0 < w)
    (hn : n ≤ w) (hb : vs.length * w + w ≤ buf.length + n) (hu : vs.length * w + w < c.usize) :
    fillTail c inj p n (vs.length * w) (vs.getLastD d) (splice buf 0 ((lanes vs).map inj)) =
      ok (splice buf 0 ((lanes vs ++ p.toList.drop n).map inj)) := by
  have ll := lanes_length vs
  have hl : (splice buf 0 ((lanes vs).map inj)).length = buf.length :=
    splice_length _ _ _ (by simp [ll]; omega)
  by_cases hv : vs = []
  · subst hv
    simp only [fillTail, List.length_nil, Nat.zero_mul, lanes_nil, List.map_nil, splice_nil,
      List.nil_append]
    rw [usub_ok hn]
    simp at hb hu
    simp only [ok_bind]
    rw [fillTailLoop_ok c inj p n 0 (w - n) 0 buf (by omega) (by omega) (by omega)]
    simp
  · have hpos : 0 < vs.length := List.length_pos_iff.mpr hv
    have hge : w ≤ vs.length * w := Nat.le_mul_of_pos_left w hpos
    simp only [fillTail]
    rw [if_pos (by omega), usub_ok (by omega), usub_ok (by omega)]
    simp only [ok_bind]
    rw [storeUnchecked_ok (by omega)]
    simp only [ok_bind]
    have hl2 : (splice (splice buf 0 ((lanes vs).map inj)) (vs.length * w - n)
        (Vector.map inj p).toList).length = buf.length := by
      rw [splice_length _ _ _ (by simp; omega), hl]
    rw [storeUnchecked_ok (by omega)]
    congr 1
    have hlast := getLastD_lanes vs d hv
    have hdl : (lanes vs.dropLast).length = vs.length * w - w := by
      rw [lanes_length, List.length_dropLast, Nat.sub_mul, Nat.one_mul]
    apply List.ext_getElem?
    intro j
    rw [splice_getElem? _ _ _ (by simp; omega), splice_getElem? _ _ _ (by simp; omega),
      splice_getElem? _ _ _ (by simp; omega), splice_getElem? _ _ _ (by simp [ll]; omega)]
    simp only [Vector.toList_map, List.length_map, Vector.length_toList, List.length_append, ll,
      List.length_drop, List.getElem?_map, Nat.not_lt_zero, if_false, Nat.zero_add, Nat.sub_zero]
    by_cases h1 : j < vs.length * w - w
    · rw [if_pos h1, if_pos (by omega), if_pos (by omega), if_pos (by omega),
        List.getElem?_append_left (by omega)]
    · rw [if_neg h1]
      by_cases h2 : j < vs.length * w
      · rw [if_pos (by omega), if_pos (by omega), List.getElem?_append_left (by omega)]
        conv => rhs; rw [hlast]
        rw [List.getElem?_append_right (by omega), hdl]
      · rw [if_neg (by omega), if_neg (by omega)]
        by_cases h3 : j < vs.length * w + (w - n)
        · rw [if_pos (by omega), if_pos h3, List.getElem?_append_right (by omega),
            List.getElem?_drop]
          congr 2; omega
        · rw [if_neg (by omega), if_neg h3, if_neg (by omega)]

/-- What `scalar_fill` leaves in the buffer. -/
theorem scalarFill_emits [Packable α] {c : Cfg} {it : I} {vs : List (Vector α w)}
    {e : Res (Option (Vector α w × Nat) × I)}
    (h : Emits c it vs e) (fuel : Nat) (buf : List α) (hf : vs.length < fuel) (hw : 0 < w)
    (hb : vs.length * w ≤ buf.length) (hu : vs.length * w + w < c.usize)
    (ht : ∀ p n it', e = ok (some (p, n), it') → n ≤ w ∧ vs.length * w + w ≤ buf.length + n) :
    scalarFill c fuel it buf = e >>= fun x =>
      ok (x.2, splice buf 0 (lanes vs ++ (x.1.map fun q => q.1.toList.drop q.2).getD [])) := by
  obtain ⟨r, h1, h2⟩ := h
  simp only [scalarFill]
  rw [fillLoop_runs id h1 fuel buf 0 _ hf (by omega) (by omega)]
  cases r with
  | ok it1 =>
    simp only [ok_bind] at h2
    simp only [ok_bind, ← h2]
    rcases e with ⟨_ | ⟨p, n⟩, it2⟩ | _ | _ | _
    · simp
    · obtain ⟨hn, hb2⟩ := ht p n it2 rfl
      have := fillTail_ok c id p n vs Packed.default buf hw hn hb2 hu
      simp only [List.map_id] at this
      simp [this, -List.getLastD_eq_getLast?]
    all_goals simp
  | _ => simp [h2]

theorem putSlice_setLen_slice {α : Type} {N m : Nat} {xs : List α} {rest : List (Option α)}
    (hm : m = xs.length) :
    ((({ cells := List.replicate N none, len := N } : RVec α).putSlice
      (xs.map some ++ rest)).setLen m >>= fun r => ok r.slice) = ok (xs.map some) := by
  subst hm
  simp [RVec.setLen, RVec.putSlice, RVec.slice]

theorem scalarCollect_emits [Packable α] {c : Cfg} {it : I} {vs : List (Vector α w)}
    {e : Res (Option (Vector α w × Nat) × I)} {L : Nat}
    (h : Emits c it vs e) (fuel : Nat) (hf : vs.length < fuel) (hw : 0 < w)
    (hL : SIMDIterable.len c it = ok L) (hv : vs.length ≤ L)
    (hu : (L + 1) * w < c.usize)
    (ht : ∀ p n it', e = ok (some (p, n), it') → n ≤ w)
    (hL2 : ∀ it', e = ok (none, it') → SIMDIterable.len c it' = ok vs.length) :
    scalarCollect c fuel it = e >>= fun x =>
      ok (x.2, (lanes vs ++ (x.1.map fun q => q.1.toList.drop q.2).getD []).map some) := by
  obtain ⟨r, h1, h2⟩ := h
  have hL1 : L + 1 ≤ (L + 1) * w := Nat.le_mul_of_pos_right _ hw
  have hvw : vs.length * w ≤ L * w := Nat.mul_le_mul_right w hv
  have e1 : (L + 1) * w = L * w + w := Nat.succ_mul L w
  have hll := lanes_length vs
  simp only [scalarCollect, hL, ok_bind]
  rw [uadd_ok (by omega)]
  simp only [ok_bind]
  rw [umul_ok (by omega)]
  have e0 : (RVec.withCapacity ((L + 1) * w) : RVec α).setLen ((L + 1) * w) =
      ok ⟨List.replicate ((L + 1) * w) none, (L + 1) * w⟩ := by
    simp [RVec.setLen, RVec.withCapacity]
  have e2 : (⟨List.replicate ((L + 1) * w) none, (L + 1) * w⟩ : RVec α).slice =
      List.replicate ((L + 1) * w) none := by
    simp [RVec.slice]
  simp only [ok_bind]
  rw [e0]
  simp only [ok_bind, e2]
  rw [fillLoop_runs some h1 fuel _ 0 _ hf (by simp; omega) (by omega)]
  cases r with
  | ok it1 =>
    simp only [ok_bind] at h2
    simp only [ok_bind, ← h2]
    rcases e with ⟨_ | ⟨p, n⟩, it2⟩ | _ | _ | _
    · simp only [ok_bind, hL2 it2 rfl]
      rw [umul_ok (by omega)]
      have := putSlice_setLen_slice (N := (L + 1) * w) (m := vs.length * w) (xs := lanes vs)
        (rest := List.drop (lanes vs).length (List.replicate ((L + 1) * w) none))
        hll.symm
      simp only [ok_bind, splice_zero, List.length_map]
      revert this
      generalize RVec.setLen _ _ = y
      intro h
      cases y <;> simp at h ⊢
      exact h
    · have hn := ht p n it2 rfl
      simp only [ok_bind, Nat.zero_add]
      rw [fillTail_ok c some p n vs _ _ hw hn (by simp; omega) (by omega)]
      simp only [ok_bind]
      rw [uadd_ok (by omega)]
      simp only [ok_bind]
      rw [usub_ok (by omega)]
      have := putSlice_setLen_slice (N := (L + 1) * w) (m := w + vs.length * w - n)
        (xs := lanes vs ++ p.toList.drop n)
        (rest := List.drop (lanes vs ++ p.toList.drop n).length (List.replicate ((L + 1) * w) none))
        (by simp [hll]; omega)
      simp only [ok_bind, splice_zero, List.length_map]
      revert this
      generalize RVec.setLen _ _ = y
      intro h
      cases y <;> simp at h ⊢
      exact h
    all_goals simp
  | _ => simp [h2]

end
end Faster
