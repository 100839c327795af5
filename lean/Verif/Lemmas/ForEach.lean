import Verif.Lemmas.Stream2
/- `simd_for_each` on slices and other mutable collections, from any position. -/
namespace Faster
open Res SIMDSized SIMDIterable SIMDIterator

namespace MutM
variable {S α β : Type}

theorem run_bind (x : MutM S α) (f : α → MutM S β) (s : S) :
    (x >>= f) s = (match x s with
      | (ok a, s') => f a s'
      | (Res.panic, s') => (Res.panic, s')
      | (ub, s') => (ub, s')
      | (hang, s') => (hang, s')) := rfl
theorem run_pure (a : α) (s : S) : (Pure.pure a : MutM S α) s = (ok a, s) := rfl
theorem run_get (s : S) : (get : MutM S S) s = (ok s, s) := rfl
theorem run_lift (x : Res α) (s : S) : (lift x : MutM S α) s = (x, s) := rfl
theorem run_call (f : S → Res (α × S)) (s : S) :
    call f s = (match f s with
      | ok (a, s') => (ok a, s')
      | Res.panic => (Res.panic, s)
      | ub => (ub, s)
      | hang => (hang, s)) := rfl
theorem run_modify (f : S → Res S) (s : S) :
    modify f s = (match f s with
      | ok s' => (ok (), s')
      | Res.panic => (Res.panic, s)
      | ub => (ub, s)
      | hang => (hang, s)) := by
  simp only [modify, run_call]
  cases f s <;> rfl

end MutM
open MutM

/-- 1 for a failure, 0 for a normal outcome. -/
def failCount {α : Type} : Res α → Nat
  | ok _ => 0
  | _ => 1

theorem splice_drop_after {α : Type} (d : List α) (o : Nat) (xs : List α) (n : Nat)
    (h : o + xs.length ≤ d.length) (hn : o + xs.length ≤ n) :
    (splice d o xs).drop n = d.drop n := by
  apply List.ext_getElem?
  intro i
  rw [List.getElem?_drop, List.getElem?_drop, splice_getElem? _ _ _ h, if_neg (by omega),
    if_neg (by omega)]

theorem splice_take_before {α : Type} (d : List α) (o : Nat) (xs : List α) (n : Nat)
    (h : o + xs.length ≤ d.length) (hn : n ≤ o) :
    (splice d o xs).take n = d.take n := by
  apply List.ext_getElem?
  intro i
  rw [List.getElem?_take, List.getElem?_take]
  split
  · rw [splice_getElem? _ _ _ h, if_pos (by omega)]
  · rfl

/-- `mk l` is the state of a mutable collection with contents `l`: loads inside the bounds give its
elements, stores inside the bounds replace them. -/
structure MutRep {A α : Type} {w : Nat} [SIMDSized A] [SIMDArray A α w] [SIMDArrayMut A α w]
    (c : Cfg) (mk : List α → A) : Prop where
  rep : ∀ l, Represents c (mk l) l
  store : ∀ (l : List α) (v : Vector α w) (o : Nat), o + w ≤ l.length →
    SIMDArrayMut.storeUnchecked c (mk l) v o = ok (mk (splice l o v.toList))
  storeScalar : ∀ (l : List α) (x : α) (i : Nat), i < l.length →
    SIMDArrayMut.storeScalarUnchecked c (mk l) x i = ok (mk (l.set i x))

theorem mutRep_slice {α : Type} {w : Nat} (c : Cfg) :
    MutRep c (Slice.mk : List α → Slice α w) where
  rep l := represents_slice c l
  store l v o h := by
    simp only [SIMDArrayMut.storeUnchecked]
    rw [storeUnchecked_ok h]
    rfl
  storeScalar l x i h := by
    simp only [SIMDArrayMut.storeScalarUnchecked]
    rw [debugAssert_ok (by omega), setUnchecked_ok (by omega)]
    rfl

section Any
variable {A α : Type} {w : Nat} [SIMDSized A] [SIMDArray A α w] [SIMDArrayMut A α w] {c : Cfg}
  {mk : List α → A}

theorem dataStore_ok (hm : MutRep c mk) {data : List α} {p o : Nat} {d v : Vector α w}
    (h : o + w ≤ data.length) :
    SIMDIter.dataStoreUnchecked c v o (⟨p, mk data, d⟩ : SIMDIter A α w) =
      ok ⟨p, mk (splice data o v.toList), d⟩ := by
  simp only [SIMDIter.dataStoreUnchecked]
  rw [hm.store _ _ _ h]
  rfl

theorem getLastD_cons' {α : Type} (a : α) (l : List α) (b : α) :
    (a :: l).getLastD b = l.getLastD a := by
  cases l <;> rfl

theorem forEachLoop_run {σ : Type} (hm : MutRep c mk) (f : FnMut σ (Vector α w) (Vector α w))
    (d : Vector α w) (hw : 0 < w) :
    ∀ (fuel : Nat) (data : List α) (p : Nat) (last : Vector α w) (st : σ),
    data.length + w < c.usize → p + w < c.usize → (data.length - p) / w < fuel →
    forEachLoop c f fuel last st (⟨p, mk data, d⟩ : SIMDIter A α w) =
      ((mapRun f st (fullWindows w (data.drop p))).2 >>= fun st' =>
          ok ((mapRun f st (fullWindows w (data.drop p))).1.getLastD last, st'),
       ⟨p + ((mapRun f st (fullWindows w (data.drop p))).1.length +
            failCount (mapRun f st (fullWindows w (data.drop p))).2) * w,
         mk (splice data p (lanes (mapRun f st (fullWindows w (data.drop p))).1)), d⟩) := by
  intro fuel
  induction fuel with
  | zero => intro data p last st h1 h2 h3; exact absurd h3 (Nat.not_lt_zero _)
  | succ fuel ih =>
    intro data p last st hu hp hf
    simp only [forEachLoop, run_bind, run_call]
    by_cases hpw : p + w ≤ data.length
    · rw [simdIter_next_some (hm.rep data) hpw (by omega)]
      simp only [run_bind, run_lift]
      rw [fullWindows_cons hw (by simp; omega), List.drop_drop]
      have e : windowAt (data.drop p) 0 w (by simp; omega) = windowAt data p w hpw := by
        ext i hi; simp [windowAt]
      simp only [e, mapRun]
      cases hfs : f st (windowAt data p w hpw) with
      | ok q =>
        obtain ⟨u, st'⟩ := q
        simp only [run_get, SIMDIterable.scalarPos, ok_bind]
        rw [usub_ok (by omega)]
        simp only [run_modify]
        rw [show p + w - w = p by omega, dataStore_ok hm hpw]
        have hl : (splice data p u.toList).length = data.length :=
          splice_length _ _ _ (by simpa using hpw)
        have hdiv : (data.length - (p + w)) / w < fuel := by
          have := Nat.div_eq_sub_div hw (show w ≤ data.length - p by omega)
          rw [Nat.sub_add_eq]; omega
        rw [← hl] at hdiv
        have hd : (splice data p u.toList).drop (p + w) = data.drop (p + w) :=
          splice_drop_after _ _ _ _ (by simpa using hpw) (by simp)
        simp only []
        rw [ih _ (p + w) u st' (by omega) (by omega) hdiv, hd]
        have hle := mapRun_length_le f st' (fullWindows w (data.drop (p + w)))
        rw [fullWindows_length, List.length_drop] at hle
        have hle2 := Nat.mul_le_mul_right w hle
        have hdm := Nat.div_mul_le_self (data.length - (p + w)) w
        have es := splice_splice data p u.toList
          (lanes (mapRun f st' (fullWindows w (data.drop (p + w)))).1)
          (by rw [lanes_length]; simp; omega)
        rw [Vector.length_toList] at es
        rw [es]
        refine Prod.ext ?_ ?_
        · simp only [getLastD_cons']
        · simp only [List.length_cons, lanes_cons, SIMDIter.mk.injEq, and_true]
          rw [show ∀ a b, a + 1 + b = (a + b) + 1 by intros; omega, Nat.succ_mul]; omega
      | _ => simp [failCount, splice_nil, castFail]
    · rw [simdIter_next_none (hm.rep data) (by omega) hp]
      rw [fullWindows_short (by simp; omega)]
      simp [mapRun, run_pure, failCount, splice_nil]

theorem forEachTailLoop_run (hm : MutRep c mk) (d v : Vector α w) (n o p : Nat) :
    ∀ (k i : Nat) (data : List α), i + k + n = w → o + (w - n) ≤ data.length →
    o + w < c.usize →
    forEachTailLoop c v n o k i (⟨p, mk data, d⟩ : SIMDIter A α w) =
      (ok (), ⟨p, mk (splice data (o + i) (v.toList.drop (i + n))), d⟩) := by
  intro k
  induction k with
  | zero =>
    intro i data h1 h2 h3
    simp only [forEachTailLoop, run_pure]
    rw [List.drop_of_length_le (by simp; omega), splice_nil]
  | succ k ih =>
    intro i data h1 h2 h3
    simp only [forEachTailLoop, run_bind, run_lift]
    rw [uadd_ok (by omega)]
    simp only [ok_bind]
    rw [extractUnchecked_ok (by omega), uadd_ok (by omega)]
    simp only [run_modify, SIMDIter.dataStoreScalarUnchecked]
    rw [hm.storeScalar _ _ _ (by omega)]
    simp only [ok_bind]
    rw [ih (i + 1) _ (by omega) (by simpa using h2) h3]
    congr 3
    apply List.ext_getElem?
    intro j
    have l1 : (v.toList.drop (i + 1 + n)).length = k := by simp; omega
    have l2 : (v.toList.drop (i + n)).length = k + 1 := by simp; omega
    rw [splice_getElem? _ _ _ (by rw [l1]; simp; omega), splice_getElem? _ _ _ (by rw [l2]; omega),
      l1, l2]
    simp only [List.getElem?_set, List.getElem?_drop]
    by_cases hj : j = o + i
    · subst hj
      rw [if_pos (by omega), if_pos rfl, if_pos (by omega), if_neg (by omega),
        if_pos (by omega), show i + n + (o + i - (o + i)) = i + n by omega,
        List.getElem?_eq_getElem (by simp; omega), Vector.getElem_toList]
    · by_cases hj2 : j < o + i
      · rw [if_pos (by omega), if_neg (by omega), if_pos (by omega)]
      · by_cases hj3 : j < o + i + (k + 1)
        · rw [if_neg (by omega), if_pos (by omega), if_neg (by omega), if_pos (by omega)]
          congr 1; omega
        · rw [if_neg (by omega), if_neg (by omega), if_neg (by omega), if_neg (by omega),
            if_neg (by omega)]

end Any

theorem mapRun_append {σ β γ : Type} (f : FnMut σ β γ) (st : σ) (vs us : List β) :
    mapRun f st (vs ++ us) = (match (mapRun f st vs).2 with
      | ok st' => ((mapRun f st vs).1 ++ (mapRun f st' us).1, (mapRun f st' us).2)
      | r => ((mapRun f st vs).1, r)) := by
  induction vs generalizing st with
  | nil => simp [mapRun]
  | cons v vs ih =>
    simp only [List.cons_append, mapRun]
    cases hf : f st v with
    | ok p =>
      simp only [ih]
      cases (mapRun f p.2 vs).2 <;> rfl
    | _ => simp [castFail]

theorem mapRun_length_lt {σ β γ : Type} (f : FnMut σ β γ) (st : σ) (vs : List β)
    (h : ∀ st', (mapRun f st vs).2 ≠ ok st') : (mapRun f st vs).1.length < vs.length := by
  induction vs generalizing st with
  | nil => exact absurd rfl (h st)
  | cons v vs ih =>
    simp only [mapRun] at h ⊢
    cases hf : f st v with
    | ok q =>
      rw [hf] at h
      simpa using ih q.2 h
    | _ => simp

/-- The slice after a pass of `simd_for_each` from position `p` in which the
closure returned `us` and then had outcome `r`. -/
def forEachData {α σ : Type} {w : Nat} (data : List α) (p : Nat) (us : List (Vector α w)) :
    Res σ → List α
  | ok _ => data.take p ++ unpad ((w - (data.length - p) % w) % w) us
  | _ => splice data p (lanes us)

theorem splice_full_eq {α : Type} (data : List α) (p : Nat) (xs : List α)
    (h : p + xs.length = data.length) : splice data p xs = data.take p ++ xs := by
  simp [splice, h]

/-- Overwriting `[q - n, q - n + w)` with `u`, then `[q - w, q)` with what was
there before, changes only `[q, q + w - n)`. -/
theorem splice_repair {α : Type} (D : List α) (q n w : Nat) (u L : List α) (hn : n ≤ w) (hq : w ≤ q)
    (hu : u.length = w) (hl : L.length = w) (hlen : q + w - n ≤ D.length)
    (hL : ∀ i, i < w → D[q - w + i]? = L[i]?) :
    splice (splice D (q - n) u) (q - w) L = splice D q (u.drop n) := by
  have l1 : (splice D (q - n) u).length = D.length := splice_length _ _ _ (by omega)
  have l2 : (u.drop n).length = w - n := by simp [hu]
  apply List.ext_getElem?
  intro j
  rw [splice_getElem? _ _ _ (by omega), splice_getElem? _ _ _ (by omega),
    splice_getElem? _ _ _ (by omega), hu, hl, l2]
  by_cases h1 : j < q - w
  · rw [if_pos h1, if_pos (by omega), if_pos (by omega)]
  · by_cases h2 : j < q
    · rw [if_neg h1, if_pos (by omega), if_pos h2, ← hL (j - (q - w)) (by omega)]
      congr 1; omega
    · rw [if_neg h1, if_neg (by omega), if_neg (by omega), if_neg h2]
      by_cases h3 : j < q + (w - n)
      · rw [if_pos (by omega), if_pos h3, List.getElem?_drop]; congr 1; omega
      · rw [if_neg (by omega), if_neg h3]

/-- `simd_for_each` from a position where it works: the start, or with a full
vector left, or with nothing left. -/
theorem simdForEach_any {A α σ : Type} [Packable α] {w : Nat} [SIMDSized A] [SIMDArray A α w]
    [SIMDArrayMut A α w] {c : Cfg} {mk : List α → A} (hmr : MutRep c mk)
    (f : FnMut σ (Vector α w) (Vector α w)) (d : Vector α w) (hw : 0 < w)
    (fuel : Nat) (data : List α) (p : Nat) (st : σ)
    (hu : data.length + w < c.usize) (hp : p + w < c.usize) (hf : data.length / w < fuel)
    (hpos : p = 0 ∨ p + w ≤ data.length ∨ data.length ≤ p) :
    ∃ p', simdForEach c fuel st f (⟨p, mk data, d⟩ : SIMDIter A α w) =
      ((mapRun f st (calls w d (data.drop p))).2,
        ⟨p', mk (forEachData data p (mapRun f st (calls w d (data.drop p))).1
          (mapRun f st (calls w d (data.drop p))).2), d⟩) ∧
      (∀ st', (mapRun f st (calls w d (data.drop p))).2 = ok st' → p' = max p data.length) ∧
      ((∀ st', (mapRun f st (calls w d (data.drop p))).2 ≠ ok st') →
        p' = min (p + ((mapRun f st (calls w d (data.drop p))).1.length + 1) * w) data.length) := by
  have hfu : (data.length - p) / w < fuel :=
    Nat.lt_of_le_of_lt (Nat.div_le_div_right (by omega)) hf
  simp only [simdForEach, run_bind]
  rw [forEachLoop_run hmr f d hw fuel data p _ st hu hp hfu, calls, mapRun_append]
  have hle := mapRun_length_le f st (fullWindows w (data.drop p))
  have hlen := mapRun_length f st (vs := fullWindows w (data.drop p))
  rw [fullWindows_length, List.length_drop] at hle hlen
  generalize hws : fullWindows w (data.drop p) = ws at *
  cases hr : (mapRun f st ws).2 with
  | ok st' =>
    have hk := hlen st' hr
    simp only [ok_bind, run_get, run_lift, SIMDIterable.scalarPos, run_call, failCount, Nat.add_zero]
    generalize hus : (mapRun f st ws).1 = us at *
    rw [hk]
    have hdm := Nat.div_add_mod (data.length - p) w
    have hm := Nat.mod_lt (data.length - p) hw
    rw [Nat.mul_comm] at hdm
    have hll : (lanes us).length = (data.length - p) / w * w := by rw [lanes_length, hk]
    by_cases hpl : data.length ≤ p
    · -- nothing left
      have h0 : data.length - p = 0 := by omega
      have hdr : data.drop p = [] := List.drop_of_length_le hpl
      rw [h0] at hk ⊢
      have hus0 : us = [] := List.eq_nil_of_length_eq_zero (by simpa using hk)
      subst hus0
      simp only [Nat.zero_div, Nat.zero_mul, Nat.add_zero, lanes_nil, splice_nil, hdr]
      rw [simdIter_end_exact (hmr.rep data) p d hu, if_pos hpl]
      refine ⟨p, ?_, ?_⟩
      · simp [run_pure, mapRun, forEachData, unpad, List.take_of_length_le hpl]
      · exact ⟨fun _ _ => by omega, fun h => absurd rfl (h _)⟩
    · have hsl : (splice data p (lanes us)).length = data.length :=
        splice_length _ _ _ (by rw [hll]; omega)
      rw [simdIter_end_exact (hmr.rep _) _ d (by rw [hsl]; exact hu), hsl]
      simp only [List.length_drop]
      have e1 : (data.drop p).length = data.length - p := by simp
      by_cases h0 : (data.length - p) % w = 0
      · rw [if_pos h0, if_pos (by omega)]
        refine ⟨p + (data.length - p) / w * w, ?_, ?_⟩
        · simp only [run_pure, mapRun, forEachData, List.append_nil, h0, Nat.sub_zero, Nat.mod_self,
            unpad_zero]
          rw [splice_full_eq _ _ _ (by rw [hll]; omega)]
        · exact ⟨fun _ _ => by omega, fun h => absurd rfl (h _)⟩
      · rw [if_neg h0, if_neg (by omega), if_neg (by omega)]
        by_cases hkp : (data.length - p) / w = 0
        · -- shorter than a vector, from the start
          have hlt : data.length - p < w := by
            rcases Nat.lt_or_ge (data.length - p) w with h | h
            · exact h
            · have := Nat.div_pos h hw; omega
          have hp0 : p = 0 := by omega
          subst hp0
          have hus0 : us = [] := List.eq_nil_of_length_eq_zero (by omega)
          subst hus0
          simp only [Nat.sub_zero] at hkp h0 hlt hm hdm
          simp only [hkp, Nat.zero_mul, Nat.add_zero, Nat.sub_zero, lanes_nil, splice_nil,
            List.drop_zero]
          rw [if_neg (by omega)]
          have hlo : leftover w data = data := by simp [leftover, hkp]
          simp only [hlo, mapRun]
          rw [Nat.mod_eq_of_lt hlt] at h0
          cases hf2 : f st' (padFront d data) with
          | ok q =>
            obtain ⟨u, st''⟩ := q
            simp only [run_bind, run_get, run_lift, SIMDSized.scalarLen, (hmr.rep _).scalarLen]
            rw [if_neg (by omega)]
            simp only [run_bind, run_lift]
            rw [usub_ok (by omega)]
            simp only []
            rw [forEachTailLoop_run hmr d u _ 0 _ _ 0 data (by omega) (by omega) (by omega)]
            refine ⟨data.length, ?_, ?_⟩
            · simp only [run_pure, forEachData, Nat.sub_zero, Nat.zero_add, List.take_zero, List.nil_append]
              have : unpad ((w - data.length % w) % w) [u] = u.toList.drop (w - data.length) := by
                rw [Nat.mod_eq_of_lt hlt, Nat.mod_eq_of_lt (by omega)]
                simp [unpad]
              rw [this, splice_full_eq _ _ _ (by simp; omega)]
              simp
            · exact ⟨fun _ _ => by omega, fun h => absurd rfl (h _)⟩
          | _ =>
            refine ⟨data.length, ?_, ?_⟩
            · simp [castFail, run_bind, run_lift, forEachData, splice_nil]
            · simp [castFail]; omega
        · have hwk : w ≤ (data.length - p) / w * w :=
            Nat.le_mul_of_pos_left w (Nat.pos_of_ne_zero hkp)
          rw [if_neg (by omega)]
          have hlo : (splice data p (lanes us)).drop (p + (data.length - p) / w * w) =
              leftover w (data.drop p) := by
            rw [splice_drop_after _ _ _ _ (by rw [hll]; omega) (by rw [hll]; omega), leftover,
              List.drop_drop, e1]
          simp only [hlo, mapRun]
          cases hf2 : f st' (padFront d (leftover w (data.drop p))) with
          | ok q =>
            obtain ⟨u, st''⟩ := q
            simp only [run_bind, run_get, run_lift, SIMDSized.scalarLen, (hmr.rep _).scalarLen, hsl]
            rw [if_pos (by omega)]
            simp only [run_bind, run_modify]
            rw [usub_ok (show w - (data.length - (p + (data.length - p) / w * w)) ≤
              p + (data.length - p) / w * w by omega)]
            simp only [ok_bind]
            rw [dataStore_ok hmr (by rw [hsl]; omega)]
            simp only []
            rw [usub_ok (show w ≤ p + (data.length - p) / w * w by omega)]
            simp only [ok_bind]
            have hsl2 : (splice (splice data p (lanes us)) (p + (data.length - p) / w * w -
                (w - (data.length - (p + (data.length - p) / w * w)))) u.toList).length
                = data.length := by
              rw [splice_length _ _ _ (by rw [hsl]; simp; omega), hsl]
            rw [dataStore_ok hmr (by rw [hsl2]; omega)]
            refine ⟨data.length, ?_, ?_⟩
            · have hne : us ≠ [] := by
                intro h
                subst h
                simp at hk; omega
              obtain ⟨us', last, rfl⟩ : ∃ us' last, us = us' ++ [last] := by
                rcases List.eq_nil_or_concat us with h | ⟨l, u, h⟩
                · exact absurd h hne
                · exact ⟨l, u, by simpa using h⟩
              have hk2 : (us'.length + 1) = (data.length - p) / w := by simpa using hk
              rw [splice_repair _ _ _ _ _ _ (by omega) (by omega) (by simp) (by simp)
                (by rw [hsl]; omega)]
              · simp only [run_pure, forEachData, unpad_concat]
                refine Prod.ext rfl ?_
                simp only [SIMDIter.mk.injEq, and_true, true_and]
                congr 1
                have es := splice_splice data p (lanes (us' ++ [last]))
                  (u.toList.drop (w - (data.length - (p + (data.length - p) / w * w))))
                  (by rw [hll]; simp; omega)
                rw [hll] at es
                rw [es, splice_full_eq _ _ _ (by rw [List.length_append, hll]; simp; omega)]
                rw [show w - (data.length - (p + (data.length - p) / w * w)) =
                  (w - (data.length - p) % w) % w by
                    rw [Nat.mod_eq_of_lt (a := w - (data.length - p) % w) (by omega)]; omega]
              · intro i hi
                have hcat : (us' ++ [last]).getLastD (Packed.default : Vector α w) = last := by
                  simp [-List.getLastD_eq_getLast?, List.getLastD_concat]
                rw [splice_getElem? _ _ _ (by rw [hll]; omega), hll, if_neg (by omega),
                  if_pos (by omega), hcat]
                simp only [lanes_append, lanes_cons, lanes_nil, List.append_nil]
                have hl3 : (lanes us').length = us'.length * w := lanes_length us'
                have : (data.length - p) / w * w = us'.length * w + w := by
                  rw [← hk2, Nat.succ_mul]
                rw [List.getElem?_append_right (by omega)]
                congr 1; omega
            · exact ⟨fun _ _ => by omega, fun h => absurd rfl (h _)⟩
          | _ =>
            refine ⟨data.length, ?_, ?_⟩
            · simp [castFail, run_bind, run_lift, forEachData]
            · simp [castFail]; rw [hk, Nat.succ_mul]; omega
  | _ =>
    refine ⟨p + ((mapRun f st ws).1.length + 1) * w, ?_, ?_⟩
    · simp only [panic_bind, ub_bind, hang_bind, forEachData, failCount]
    · have hlt := mapRun_length_lt f st ws (by simp [hr])
      rw [← hws, fullWindows_length, List.length_drop, hws] at hlt
      have h1 := Nat.mul_le_mul_right w (show (mapRun f st ws).1.length + 1 ≤ _ from hlt)
      have h2 := Nat.div_mul_le_self (data.length - p) w
      have h3 : (mapRun f st ws).1.length + 1 ≤ ((mapRun f st ws).1.length + 1) * w :=
        Nat.le_mul_of_pos_right _ hw
      simp
      omega

/-- `simd_for_each` on a slice. -/
theorem simdForEach_run {α σ : Type} [Packable α] {w : Nat} {c : Cfg}
    (f : FnMut σ (Vector α w) (Vector α w)) (d : Vector α w) (hw : 0 < w)
    (fuel : Nat) (data : List α) (p : Nat) (st : σ)
    (hu : data.length + w < c.usize) (hp : p + w < c.usize) (hf : data.length / w < fuel)
    (hpos : p = 0 ∨ p + w ≤ data.length ∨ data.length ≤ p) :
    ∃ p', simdForEach c fuel st f (⟨p, ⟨data⟩, d⟩ : SIMDIter (Slice α w) α w) =
      ((mapRun f st (calls w d (data.drop p))).2,
        ⟨p', ⟨forEachData data p (mapRun f st (calls w d (data.drop p))).1
          (mapRun f st (calls w d (data.drop p))).2⟩, d⟩) ∧
      (∀ st', (mapRun f st (calls w d (data.drop p))).2 = ok st' → p' = max p data.length) ∧
      ((∀ st', (mapRun f st (calls w d (data.drop p))).2 ≠ ok st') →
        p' = min (p + ((mapRun f st (calls w d (data.drop p))).1.length + 1) * w) data.length) :=
  simdForEach_any (mutRep_slice c) f d hw fuel data p st hu hp hf hpos

end Faster
