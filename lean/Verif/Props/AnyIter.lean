import Verif.Lemmas.Stream2
import Verif.Lemmas.FillAll
/-
C135: the consumers `scalar_fill` and `scalar_collect` on any implementation of
the iterator traits. The traits are safe to implement, so nothing relates the
answers of `next`, `end` and `len` to each other.
-/
namespace Faster
open Res SIMDSized SIMDIterable SIMDIterator

section C135
variable {I α κ : Type} {w : Nat} [SIMDSized I] [SIMDIterator I α w]

/-- `store_unchecked` in every case: it fits; it starts in the slice but does
not fit; it starts outside, where taking the subslice panics. -/
theorem storeUnchecked_exact (c : Cfg) (v : Vector κ w) (l : List κ) (o : Nat) :
    Packed.storeUnchecked c v l o =
      if o + w ≤ l.length then ok (splice l o v.toList)
      else if o ≤ l.length then badAccess c else panic := by
  by_cases h : o + w ≤ l.length
  · rw [if_pos h, storeUnchecked_ok h]
  · rw [if_neg h]
    by_cases h1 : o ≤ l.length
    · rw [if_pos h1, storeUnchecked_bad h1 (by omega)]
    · rw [if_neg h1]
      simp only [Packed.storeUnchecked, sliceFrom, h1, if_false]
      cases c.debug <;> rfl

/-- What the consumers have to do with the answer `Some((p, n))` of `end`,
after the full vectors `vs` have been stored in a buffer `buf`. -/
def tailStored (c : Cfg) (inj : α → κ) (p : Vector α w) (n : Nat) (vs : List (Vector α w))
    (d : Vector α w) (buf : List κ) : Res (List κ) :=
  let k := vs.length
  if k = 0 then
    -- element by element, with bounds checks on the buffer only
    if w < n then badAccess c
    else if buf.length < w - n then panic
    else ok (splice buf 0 ((p.toList.drop n).map inj))
  else if n ≤ w then
    -- the lanes from `n` on after the full vectors
    if buf.length < k * w + (w - n) then badAccess c
    else ok (splice buf 0 ((lanes vs ++ p.toList.drop n).map inj))
  else
    -- more unfilled lanes than lanes: the vector is stored over earlier ones, of which only the
    -- last is repaired; or, in release builds, at an offset which wrapped around
    let o := if n ≤ k * w then k * w - n else c.usize + k * w - n
    if k * w < n ∧ (c.debug ∨ buf.length < o) then panic
    else if buf.length < o + w then badAccess c
    else ok (splice (splice (splice buf 0 ((lanes vs).map inj)) o (p.toList.map inj))
      (k * w - w) ((vs.getLastD d).toList.map inj))

theorem fillTail_any (c : Cfg) (inj : α → κ) (p : Vector α w) (n : Nat)
    (vs : List (Vector α w)) (d : Vector α w) (buf : List κ) (hw : 0 < w)
    (hb : vs.length * w ≤ buf.length) (hu : buf.length + 2 * w < c.usize) (hn : n < c.usize) :
    fillTail c inj p n (vs.length * w) (vs.getLastD d) (splice buf 0 ((lanes vs).map inj)) =
      tailStored c inj p n vs d buf := by
  have ll := lanes_length vs
  have hl : (splice buf 0 ((lanes vs).map inj)).length = buf.length :=
    splice_length _ _ _ (by simp [ll]; omega)
  simp only [tailStored]
  by_cases hv : vs = []
  · subst hv
    simp only [List.length_nil, if_true]
    by_cases h1 : w < n
    · rw [if_pos h1]
      simp only [fillTail, Nat.zero_mul, Nat.lt_irrefl, if_false, usub,
        show ¬ n ≤ w by omega, badAccess, gt_iff_lt]
      cases hd : c.debug
      · simp only [Bool.false_eq_true, if_false, ok_bind]
        rw [Nat.mod_eq_of_lt (by omega)]
        obtain ⟨m, hm⟩ : ∃ m, c.usize + w - n = m + 1 := ⟨c.usize + w - n - 1, by omega⟩
        rw [hm]
        simp only [fillTailLoop]
        rw [uadd_ok (by omega)]
        simp [Packed.extractUnchecked, debugAssert, hd, show ¬ n < w by omega]
      · simp
    · rw [if_neg h1]
      by_cases h2 : buf.length < w - n
      · rw [if_pos h2]
        simp only [fillTail, Nat.zero_mul, Nat.lt_irrefl, if_false, gt_iff_lt]
        rw [usub_ok (by omega), ok_bind]
        exact fillTailLoop_short c inj p n 0 (w - n) 0 _ (by omega) (by simp) (by rw [hl]; omega)
          (by omega)
      · rw [if_neg h2]
        have := fillTail_ok c inj p n [] d buf hw (by omega) (by simp; omega) (by simp; omega)
        simpa using this
  · have hpos : 0 < vs.length := List.length_pos_iff.mpr hv
    have hge : w ≤ vs.length * w := Nat.le_mul_of_pos_left w hpos
    rw [if_neg (by omega)]
    by_cases h1 : n ≤ w
    · rw [if_pos h1]
      by_cases h2 : buf.length < vs.length * w + (w - n)
      · rw [if_pos h2]
        simp only [fillTail]
        rw [if_pos (by omega), usub_ok (by omega)]
        simp only [ok_bind]
        rw [storeUnchecked_bad (by omega) (by omega)]
        simp
      · rw [if_neg h2, fillTail_ok c inj p n vs d buf hw h1 (by omega) (by omega)]
    · rw [if_neg h1]
      simp only [fillTail]
      rw [if_pos (by omega), usub_ok (c := c) (a := vs.length * w) (b := w) (by omega)]
      simp only [ok_bind]
      have store : ∀ o, buf.length < o + w ∧ ¬ buf.length < o ∨ o + w ≤ buf.length →
          (Packed.storeUnchecked c (p.map inj) (splice buf 0 ((lanes vs).map inj)) o >>= fun b =>
            Packed.storeUnchecked c ((vs.getLastD d).map inj) b (vs.length * w - w)) =
          if buf.length < o + w then badAccess c
          else ok (splice (splice (splice buf 0 ((lanes vs).map inj)) o (p.toList.map inj))
            (vs.length * w - w) ((vs.getLastD d).toList.map inj)) := by
        intro o ho
        by_cases h2 : buf.length < o + w
        · rw [if_pos h2, storeUnchecked_bad (by omega) (by omega)]
          simp
        · rw [if_neg h2, storeUnchecked_ok (by omega), ok_bind]
          have hl2 : (splice (splice buf 0 ((lanes vs).map inj)) o
              (Vector.map inj p).toList).length = buf.length := by
            rw [splice_length _ _ _ (by simp; omega), hl]
          rw [storeUnchecked_ok (by omega), Vector.toList_map, Vector.toList_map]
      by_cases h2 : n ≤ vs.length * w
      · rw [usub_ok h2, ok_bind, if_pos h2, if_neg (by omega)]
        exact store _ (by omega)
      · simp only [usub, if_neg h2]
        cases hd : c.debug
        · simp only [Bool.false_eq_true, if_false, ok_bind, false_or]
          rw [Nat.mod_eq_of_lt (by omega)]
          by_cases h3 : buf.length < c.usize + vs.length * w - n
          · rw [if_pos ⟨by omega, h3⟩, storeUnchecked_exact, if_neg (by omega), if_neg (by omega)]
            rfl
          · rw [if_neg (by omega)]
            exact store _ (by omega)
        · simp [show vs.length * w < n by omega]

/-- **C135**, `scalar_fill` of any iterator: `next` returns the vectors `vs` and
then `None`, then `end` returns `t`. -/
theorem C135_fill [Packable α] (c : Cfg) (fuel : Nat) (it it1 it' : I) (vs : List (Vector α w))
    (t : Option (Vector α w × Nat)) (buf : List α) (hr : Runs c it vs (ok it1))
    (he : end_ c it1 = ok (t, it')) (hf : vs.length < fuel) (hw : 0 < w)
    (hu : buf.length + 2 * w < c.usize) (hn : ∀ p n, t = some (p, n) → n < c.usize) :
    scalarFill c fuel it buf =
      if buf.length < vs.length * w then badAccess c
      else match t with
        | none => ok (it', splice buf 0 (lanes vs))
        | some (p, n) => tailStored c id p n vs Packed.default buf >>= fun b => ok (it', b) := by
  simp only [scalarFill]
  by_cases h1 : buf.length < vs.length * w
  · rw [if_pos h1, fillLoop_runs_short id hr fuel buf 0 _ hf (by omega) (by omega) (by omega)]
    simp
  · rw [if_neg h1, fillLoop_runs id hr fuel buf 0 _ hf (by omega) (by omega)]
    simp only [ok_bind, he, Nat.zero_add]
    cases t with
    | none => simp
    | some q =>
      obtain ⟨p, n⟩ := q
      simp only
      rw [fillTail_any c id p n vs _ buf hw (by omega) (by omega) (hn p n rfl)]

/-- `scalar_fill` of any iterator writes out of bounds exactly in these cases,
all in release builds. -/
theorem C135_fill_ub [Packable α] (c : Cfg) (fuel : Nat) (it it1 it' : I) (vs : List (Vector α w))
    (t : Option (Vector α w × Nat)) (buf : List α) (hr : Runs c it vs (ok it1))
    (he : end_ c it1 = ok (t, it')) (hf : vs.length < fuel) (hw : 0 < w)
    (hu : buf.length + 2 * w < c.usize) (hn : ∀ p n, t = some (p, n) → n < c.usize) :
    scalarFill c fuel it buf = ub ↔ c.debug = false ∧
      (buf.length < vs.length * w ∨ ∃ p n, t = some (p, n) ∧
        (vs = [] ∧ w < n ∨
          vs ≠ [] ∧ n ≤ w ∧ buf.length < vs.length * w + (w - n) ∨
          vs ≠ [] ∧ vs.length * w < n ∧ w < n ∧ c.usize + vs.length * w - n ≤ buf.length ∧
            buf.length < c.usize + vs.length * w - n + w)) := by
  rw [C135_fill c fuel it it1 it' vs t buf hr he hf hw hu hn]
  have hb : ∀ A : Type, (badAccess c : Res A) = ub ↔ c.debug = false := by
    intro A; simp only [badAccess]; cases c.debug <;> simp
  by_cases h1 : buf.length < vs.length * w
  · simp [h1, hb]
  · rw [if_neg h1]
    cases t with
    | none => simp [h1]
    | some q =>
      obtain ⟨p, n⟩ := q
      have hn' := hn p n rfl
      have key : (tailStored c id p n vs Packed.default buf >>= fun b => ok (it', b)) = ub ↔
          tailStored c id p n vs Packed.default buf = ub := by
        cases tailStored c id p n vs Packed.default buf <;> simp
      simp only [key, h1, false_or, Option.some.injEq, Prod.mk.injEq]
      have e0 : vs = [] ↔ vs.length = 0 := by simp
      simp only [ne_eq, e0, tailStored]
      by_cases hv : vs.length = 0
      · simp only [hv, if_true, not_true, false_and, or_false, true_and]
        constructor
        · intro h
          split at h
          · exact ⟨(hb _).1 h, p, n, ⟨rfl, rfl⟩, by assumption⟩
          · split at h <;> cases h
        · rintro ⟨hd, p', n', ⟨rfl, rfl⟩, h⟩
          rw [if_pos h]
          exact (hb _).2 hd
      · have hge : w ≤ vs.length * w := Nat.le_mul_of_pos_left w (by omega)
        simp only [hv, if_false, false_and, false_or, not_false_eq_true, true_and]
        constructor
        · intro h
          split at h
          · split at h
            · exact ⟨(hb _).1 h, p, n, ⟨rfl, rfl⟩, .inl ⟨by assumption, by assumption⟩⟩
            · cases h
          · rename_i h2
            by_cases h5 : n ≤ vs.length * w
            · rw [if_pos h5, if_neg (by omega), if_neg (by omega)] at h
              cases h
            · rw [if_neg h5] at h
              split at h
              · cases h
              · rename_i h3
                split at h
                · rename_i h4
                  have hd := (hb _).1 h
                  refine ⟨hd, p, n, ⟨rfl, rfl⟩, .inr ?_⟩
                  simp only [hd, Bool.false_eq_true, false_or, not_and, Nat.not_lt] at h3
                  have := h3 (by omega)
                  omega
                · cases h
        · rintro ⟨hd, p', n', ⟨rfl, rfl⟩, h⟩
          rcases h with ⟨h2, h3⟩ | ⟨h2, h3, h4, h5⟩
          · rw [if_pos h2, if_pos h3]
            exact (hb _).2 hd
          · rw [if_neg (by omega), if_neg (show ¬ n ≤ vs.length * w by omega), if_neg (by
              simp only [hd, Bool.false_eq_true, false_or]; omega), if_pos (by omega)]
            exact (hb _).2 hd

/-- The stored tail has the length of the buffer. -/
theorem tailStored_length (c : Cfg) (inj : α → κ) (p : Vector α w) (n : Nat) (vs : List (Vector α w))
    (d : Vector α w) (buf b : List κ) (hb : vs.length * w ≤ buf.length)
    (h : tailStored c inj p n vs d buf = ok b) : b.length = buf.length := by
  have ll := lanes_length vs
  have hbad : ∀ x : List κ, (badAccess c : Res (List κ)) ≠ ok x := by
    intro x; simp only [badAccess]; cases c.debug <;> simp
  simp only [tailStored] at h
  by_cases hv : vs.length = 0
  · rw [if_pos hv] at h
    split at h
    · exact absurd h (hbad b)
    · split at h
      · cases h
      · cases h
        exact splice_length _ _ _ (by simp; omega)
  · have hge : w ≤ vs.length * w := Nat.le_mul_of_pos_left w (by omega)
    rw [if_neg hv] at h
    split at h
    · split at h
      · exact absurd h (hbad b)
      · cases h
        exact splice_length _ _ _ (by simp [ll]; omega)
    · generalize (if n ≤ vs.length * w then vs.length * w - n else c.usize + vs.length * w - n) = o at h
      by_cases h1 : vs.length * w < n ∧ (c.debug ∨ buf.length < o)
      · rw [if_pos h1] at h; cases h
      rw [if_neg h1] at h
      by_cases h2 : buf.length < o + w
      · rw [if_pos h2] at h; exact absurd h (hbad b)
      rw [if_neg h2] at h
      cases h
      have l1 : (splice buf 0 ((lanes vs).map inj)).length = buf.length :=
        splice_length _ _ _ (by simp [ll]; omega)
      have l2 : (splice (splice buf 0 ((lanes vs).map inj)) o (p.toList.map inj)).length = buf.length := by
        rw [splice_length _ _ _ (by simp; omega), l1]
      rw [splice_length _ _ _ (by simp; omega), l2]

/-- The length which `scalar_collect` gives its result after `Some((p, n))`:
where the tail was stored it is `w + offset - n`, in every case as a `usize`,
and at most the capacity. -/
theorem tailStored_setLen (c : Cfg) (inj : α → κ) (p : Vector α w) (n : Nat) (vs : List (Vector α w))
    (d : Vector α w) (buf b : List κ) (hb : vs.length * w ≤ buf.length)
    (hu : buf.length + 2 * w < c.usize) (hn : n < c.usize)
    (h : tailStored c inj p n vs d buf = ok b) :
    (uadd c w (vs.length * w) >>= fun x => usub c x n) =
        ok ((c.usize + w + vs.length * w - n) % c.usize) ∧
      (c.usize + w + vs.length * w - n) % c.usize ≤ buf.length := by
  have hbad : ∀ x : List κ, (badAccess c : Res (List κ)) ≠ ok x := by
    intro x; simp only [badAccess]; cases c.debug <;> simp
  rw [uadd_ok (by omega), ok_bind]
  have small : n ≤ w + vs.length * w → w + vs.length * w - n ≤ buf.length →
      usub c (w + vs.length * w) n = ok ((c.usize + w + vs.length * w - n) % c.usize) ∧
      (c.usize + w + vs.length * w - n) % c.usize ≤ buf.length := by
    intro h1 h2
    rw [usub_ok h1, show c.usize + w + vs.length * w - n = w + vs.length * w - n + c.usize by omega,
      Nat.add_mod_right, Nat.mod_eq_of_lt (by omega)]
    exact ⟨rfl, h2⟩
  simp only [tailStored] at h
  by_cases hv : vs.length = 0
  · rw [if_pos hv] at h
    split at h
    · exact absurd h (hbad b)
    · split at h
      · cases h
      · rw [hv] at small ⊢
        exact small (by omega) (by omega)
  · have hge : w ≤ vs.length * w := Nat.le_mul_of_pos_left w (by omega)
    rw [if_neg hv] at h
    split at h
    · split at h
      · exact absurd h (hbad b)
      · exact small (by omega) (by omega)
    · by_cases h5 : n ≤ vs.length * w
      · exact small (by omega) (by omega)
      · rw [if_neg h5] at h
        by_cases h1 : vs.length * w < n ∧ (c.debug ∨ buf.length < c.usize + vs.length * w - n)
        · rw [if_pos h1] at h; cases h
        rw [if_neg h1] at h
        by_cases h2 : buf.length < c.usize + vs.length * w - n + w
        · rw [if_pos h2] at h; exact absurd h (hbad b)
        simp only [not_and, not_or, Bool.not_eq_true, Nat.not_lt] at h1
        obtain ⟨hd, h3⟩ := h1 (by omega)
        simp only [usub, show ¬ n ≤ w + vs.length * w by omega, if_false, hd, Bool.false_eq_true]
        rw [← Nat.add_assoc]
        refine ⟨rfl, ?_⟩
        rw [Nat.mod_eq_of_lt (by omega)]
        omega

/-- **C135**, `scalar_collect` of any iterator: `next` returns the vectors `vs`
and then `None`, then `end` returns `t`. `L` is what `len` says before; `cap` is
the capacity computed from it. -/
theorem C135_collect [Packable α] (c : Cfg) (fuel : Nat) (it it1 it' : I) (vs : List (Vector α w))
    (t : Option (Vector α w × Nat)) (L cap : Nat) (hr : Runs c it vs (ok it1))
    (he : end_ c it1 = ok (t, it')) (hL : SIMDIterable.len c it = ok L)
    (hcap : (uadd c L 1 >>= fun x => umul c x w) = ok cap) (hf : vs.length < fuel) (hw : 0 < w)
    (hu : cap + 2 * w < c.usize) (hn : ∀ p n, t = some (p, n) → n < c.usize) :
    scalarCollect c fuel it =
      if cap < vs.length * w then badAccess c
      else match t with
        | none => SIMDIterable.len c it' >>= fun L' => umul c L' w >>= fun m =>
          if m ≤ cap then
            ok (it', ((lanes vs).map some ++ List.replicate (cap - vs.length * w) none).take m)
          else ub
        | some (p, n) =>
          tailStored c some p n vs Packed.default (List.replicate cap none) >>= fun b =>
            ok (it', b.take ((c.usize + w + vs.length * w - n) % c.usize)) := by
  have ll := lanes_length vs
  have e0 : (RVec.withCapacity cap : RVec α).setLen cap = ok ⟨List.replicate cap none, cap⟩ := by
    simp [RVec.setLen, RVec.withCapacity]
  have e2 : (⟨List.replicate cap none, cap⟩ : RVec α).slice = List.replicate cap none := by
    simp [RVec.slice]
  have e3 : ∀ (b : List (Option α)), b.length = cap →
      (⟨List.replicate cap none, cap⟩ : RVec α).putSlice b = ⟨b, cap⟩ := by
    intro b _; simp [RVec.putSlice]
  have start : scalarCollect c fuel it =
      (fillLoop c some fuel it (List.replicate cap none) 0 Packed.default >>= fun q =>
        SIMDIterator.end_ c q.1 >>= fun r =>
        match r.1 with
        | some (p, n) =>
          fillTail c some p n q.2.2.1 q.2.2.2 q.2.1 >>= fun b =>
          (uadd c w q.2.2.1 >>= fun x => usub c x n) >>= fun m =>
          ((⟨List.replicate cap none, cap⟩ : RVec α).putSlice b).setLen m >>= fun v => ok (r.2, v.slice)
        | none =>
          SIMDIterable.len c r.2 >>= fun L' => umul c L' w >>= fun m =>
          ((⟨List.replicate cap none, cap⟩ : RVec α).putSlice q.2.1).setLen m >>= fun v =>
            ok (r.2, v.slice)) := by
    simp only [scalarCollect, hL, ok_bind]
    cases hx : uadd c L 1 with
    | ok x =>
      rw [hx, ok_bind] at hcap
      simp only [ok_bind, hcap, e0, e2]
      congr 1
      funext q
      congr 1
      funext r
      obtain ⟨_ | ⟨p, n⟩, r2⟩ := r <;> simp
    | _ => rw [hx] at hcap; cases hcap
  rw [start]
  by_cases h1 : cap < vs.length * w
  · rw [if_pos h1, fillLoop_runs_short some hr fuel _ 0 _ hf (by omega) (by simp; omega)
      (by simp; omega)]
    simp
  · rw [if_neg h1, fillLoop_runs some hr fuel _ 0 _ hf (by simp; omega) (by omega)]
    simp only [ok_bind, he, Nat.zero_add]
    have l1 : (splice (List.replicate cap none) 0 ((lanes vs).map some)).length = cap := by
      rw [splice_length _ _ _ (by simp [ll]; omega), List.length_replicate]
    cases t with
    | none =>
      simp only
      congr 1
      funext L'
      congr 1
      funext m
      rw [e3 _ l1]
      simp only [RVec.setLen, l1]
      split
      · simp [RVec.slice, splice_zero, ll]
      · rfl
    | some q =>
      obtain ⟨p, n⟩ := q
      simp only
      rw [fillTail_any c some p n vs _ (List.replicate cap none) hw (by simp; omega) (by simp; omega)
        (hn p n rfl)]
      cases ht : tailStored c some p n vs Packed.default (List.replicate cap none) with
      | ok b =>
        have hb := tailStored_length c some p n vs _ _ b (by simp; omega) ht
        rw [List.length_replicate] at hb
        obtain ⟨h2, h3⟩ := tailStored_setLen c some p n vs _ _ b (by simp; omega) (by simp; omega)
          (hn p n rfl) ht
        rw [List.length_replicate] at h3
        simp only [ok_bind] at h2 ⊢
        rw [h2, ok_bind, e3 b hb]
        simp [RVec.setLen, RVec.slice, hb, h3]
      | _ => rfl

/-- `scalar_fill_all` of any iterator: the vectors of `next` and the one of
`end` have to fit; the number of unfilled lanes is not looked at. -/
theorem C135_fill_all (c : Cfg) (fuel : Nat) (it it1 it' : I) (vs : List (Vector α w))
    (t : Option (Vector α w × Nat)) (buf : List α) (hr : Runs c it vs (ok it1))
    (he : end_ c it1 = ok (t, it')) (hf : vs.length < fuel) (hw : 0 < w)
    (hu : buf.length + w < c.usize) :
    scalarFillAll c fuel it buf =
      if buf.length < (vs ++ (t.map Prod.fst).toList).length * w then badAccess c
      else ok (it', splice buf 0 (lanes (vs ++ (t.map Prod.fst).toList))) := by
  have ll := lanes_length vs
  simp only [scalarFillAll, scalarFillAllCells]
  by_cases h1 : buf.length < vs.length * w
  · rw [fillAllLoop_runs_short id hr fuel buf 0 hf (by omega) (by omega) hu, if_pos (by
      refine Nat.lt_of_lt_of_le h1 (Nat.mul_le_mul_right w ?_)
      rw [List.length_append]; omega)]
    simp
  · rw [fillAllLoop_runs id hr fuel buf 0 hf (by omega) (by omega)]
    simp only [ok_bind, he, Nat.zero_add]
    cases t with
    | none => simp [h1]
    | some q =>
      obtain ⟨p, n⟩ := q
      have hl : (splice buf 0 ((lanes vs).map id)).length = buf.length :=
        splice_length _ _ _ (by simp [ll]; omega)
      simp only [Option.map_some, Option.toList_some, List.length_append, List.length_cons,
        List.length_nil, Nat.zero_add, Nat.succ_mul]
      by_cases h2 : buf.length < vs.length * w + w
      · rw [if_pos h2, storeUnchecked_bad (by omega) (by omega)]
        simp
      · rw [if_neg h2, storeUnchecked_ok (by omega), ok_bind]
        have e2 := splice_splice buf 0 ((lanes vs).map id) (p.map id).toList (by simp [ll]; omega)
        rw [Nat.zero_add, List.length_map, ll] at e2
        rw [e2, lanes_append]
        simp [lanes]

/-- `next` returns the vectors `vs`, one after the other; what it does
afterwards is left open. -/
inductive Yields (c : Cfg) : I → List (Vector α w) → Prop where
  | nil (it : I) : Yields c it []
  | cons {it it1 : I} {v : Vector α w} {vs : List (Vector α w)} :
      next c it = ok (some v, it1) → Yields c it1 vs → Yields c it (v :: vs)

theorem fillLoop_yields (c : Cfg) (inj : α → κ) {it : I} {vs : List (Vector α w)}
    (h : Yields c it vs) : ∀ (fuel : Nat) (buf : List κ) (o : Nat) (last : Vector α w),
    vs.length ≤ fuel → o ≤ buf.length → buf.length < o + vs.length * w → buf.length + w < c.usize →
    fillLoop c inj fuel it buf o last = badAccess c := by
  induction h with
  | nil it => intro fuel buf o last hf h1 h2 h3; simp at h2; omega
  | @cons it it1 v vs h1 h2 ih =>
    intro fuel buf o last hf hb1 hb2 hu
    simp only [List.length_cons, Nat.succ_mul] at hf hb2
    obtain ⟨f, rfl⟩ : ∃ f, fuel = f + 1 := ⟨fuel - 1, by omega⟩
    simp only [fillLoop, h1, ok_bind]
    by_cases hs : o + w ≤ buf.length
    · rw [storeUnchecked_ok hs, ok_bind, uadd_ok (by omega), ok_bind]
      have hl : (splice buf o (v.map inj).toList).length = buf.length :=
        splice_length _ _ _ (by simpa using hs)
      exact ih f _ (o + w) v (by omega) (by omega) (by omega) (by omega)
    · rw [storeUnchecked_bad hb1 (by omega)]
      simp

/-- An iterator which does not end (or ends too late) makes `scalar_fill` write
past the buffer; in debug builds it panics there. -/
theorem C135_fill_endless [Packable α] (c : Cfg) (fuel : Nat) (it : I) (vs : List (Vector α w))
    (buf : List α) (h : Yields c it vs) (hb : buf.length < vs.length * w) (hf : vs.length ≤ fuel)
    (hu : buf.length + w < c.usize) : scalarFill c fuel it buf = badAccess c := by
  simp only [scalarFill]
  rw [fillLoop_yields c id h fuel buf 0 _ hf (by omega) (by omega) hu]
  simp

/-- The same for `scalar_collect`: it writes past its allocation when there are
two vectors more than `len` said. -/
theorem C135_collect_endless [Packable α] (c : Cfg) (fuel : Nat) (it : I) (vs : List (Vector α w))
    (L : Nat) (h : Yields c it vs) (hL : SIMDIterable.len c it = ok L) (hv : L + 1 < vs.length)
    (hw : 0 < w) (hf : vs.length ≤ fuel) (hu : (L + 2) * w < c.usize) :
    scalarCollect c fuel it = badAccess c := by
  have e1 : (L + 2) * w = (L + 1) * w + w := Nat.succ_mul (L + 1) w
  have h1 : (L + 1) * w < vs.length * w := Nat.mul_lt_mul_of_pos_right hv hw
  have h2 : L + 1 ≤ (L + 1) * w := Nat.le_mul_of_pos_right _ hw
  simp only [scalarCollect, hL, ok_bind]
  rw [uadd_ok (by omega)]
  simp only [ok_bind]
  rw [umul_ok (by omega)]
  simp only [ok_bind]
  have e0 : (RVec.withCapacity ((L + 1) * w) : RVec α).setLen ((L + 1) * w) =
      ok ⟨List.replicate ((L + 1) * w) none, (L + 1) * w⟩ := by
    simp [RVec.setLen, RVec.withCapacity]
  rw [e0, ok_bind]
  rw [fillLoop_yields c some h fuel _ 0 _ hf (by omega) (by simp [RVec.slice]; omega)
    (by simp [RVec.slice]; omega)]
  simp

/-- **C135**, what makes a third-party iterator sound: `next` returns at most
one vector more than `len` said; `end` reports at most `w` unfilled lanes, and
its filled lanes fit as well; where `end` returns `None`, `len` says afterwards
how many vectors there were. Then `scalar_collect` returns the lanes, all initialised.
Missing: the other iterators, which are safe to write (`C135_false`). -/
theorem C135_collect_partial [Packable α] (c : Cfg) (fuel : Nat) (it it1 it' : I)
    (vs : List (Vector α w)) (t : Option (Vector α w × Nat)) (L : Nat) (hr : Runs c it vs (ok it1))
    (he : end_ c it1 = ok (t, it')) (hL : SIMDIterable.len c it = ok L)
    (hf : vs.length < fuel) (hw : 0 < w) (hu : (L + 3) * w < c.usize)
    (hv : vs.length ≤ L + 1)
    (ht : ∀ p n, t = some (p, n) → n ≤ w ∧ vs.length * w + (w - n) ≤ (L + 1) * w)
    (hL2 : t = none → SIMDIterable.len c it' = ok vs.length) :
    scalarCollect c fuel it =
      ok (it', (lanes vs ++ (t.map fun q => q.1.toList.drop q.2).getD []).map some) := by
  have e1 : (L + 3) * w = (L + 1) * w + 2 * w := by rw [← Nat.add_mul]
  have h2 : L + 1 ≤ (L + 1) * w := Nat.le_mul_of_pos_right _ hw
  have h3 : vs.length * w ≤ (L + 1) * w := Nat.mul_le_mul_right w hv
  have ll := lanes_length vs
  have hcap : (uadd c L 1 >>= fun x => umul c x w) = ok ((L + 1) * w) := by
    rw [uadd_ok (by omega), ok_bind, umul_ok (by omega)]
  rw [C135_collect c fuel it it1 it' vs t L _ hr he hL hcap hf hw (by omega) (by
    intro p n h; have := (ht p n h).1; omega), if_neg (by omega)]
  cases t with
  | none =>
    simp only [hL2 rfl, ok_bind]
    rw [umul_ok (by omega), ok_bind, if_pos h3]
    simp [← ll]
  | some q =>
    obtain ⟨p, n⟩ := q
    obtain ⟨hn, hfit⟩ := ht p n rfl
    have e2 : (c.usize + w + vs.length * w - n) % c.usize = vs.length * w + (w - n) := by
      rw [show c.usize + w + vs.length * w - n = vs.length * w + (w - n) + c.usize by omega,
        Nat.add_mod_right, Nat.mod_eq_of_lt (by omega)]
    simp only [e2, tailStored, List.length_replicate]
    by_cases h0 : vs.length = 0
    · have hv0 : vs = [] := List.length_eq_zero_iff.1 h0
      subst hv0
      simp only [List.length_nil, Nat.zero_mul, Nat.zero_add] at hfit ⊢
      rw [if_pos trivial, if_neg (by omega), if_neg (by omega), ok_bind, splice_zero]
      simp
    · rw [if_neg h0, if_pos hn, if_neg (by omega), ok_bind, splice_zero]
      have : vs.length * w + (w - n) = ((lanes vs ++ p.toList.drop n).map some).length := by
        simp [ll]
      rw [this, List.take_left']
      · simp
      · rfl

end C135

/-! ### Iterators which are safe to write -/

/-- A third-party iterator over vectors of two bytes, safe code throughout: a
list of vectors, what `end` and `len` answer. -/
structure Stub where
  vecs : List (Vector (BitVec 8) 2)
  tail : Option (Vector (BitVec 8) 2 × Nat)
  says : Nat
deriving Repr, DecidableEq

instance : SIMDSized Stub where
  scalarLen _ s := ok (s.says * 2)

instance : SIMDIterator Stub (BitVec 8) 2 where
  next _ s := match s.vecs with
    | [] => ok (none, s)
    | v :: vs => ok (some v, { s with vecs := vs })
  len _ s := ok s.says
  scalarPos _ _ := ok 0
  advance _ s _ := ok s
  dflt _ := #v[0, 0]
  end_ _ s := ok (s.tail, { s with tail := none })

/-- **C135 is false**: an iterator of two vectors whose `len` is zero. -/
theorem C135_false : scalarCollect release64 9 (⟨[#v[1, 2], #v[3, 4]], none, 0⟩ : Stub) = ub := by
  decide +kernel

-- its `len` is too large: the result contains uninitialised memory
example : scalarCollect release64 9 (⟨[#v[1, 2]], none, 2⟩ : Stub) =
    ok (⟨[], none, 2⟩, [some 1, some 2, none, none]) := by decide +kernel

-- more unfilled lanes than lanes
example : scalarFill release64 9 (⟨[], some (#v[1, 2], 3), 0⟩ : Stub) [0, 0, 0, 0] = ub := by
  decide +kernel
example : scalarFill release64 9 (⟨[#v[1, 2], #v[3, 4]], some (#v[5, 6], 3), 0⟩ : Stub)
    [0, 0, 0, 0] = ok (⟨[], none, 0⟩, [1, 5, 3, 4]) := by decide +kernel
-- `usize::MAX` unfilled lanes, as `SIMDAdapter` reports for a full vector: one cell is skipped
example : scalarFill release64 9 (⟨[#v[1, 2]], some (#v[5, 6], 2 ^ 64 - 1), 0⟩ : Stub)
    [0, 0, 0, 0, 0] = ok (⟨[], none, 0⟩, [1, 2, 0, 5, 6]) := by decide +kernel

example : scalarCollect release64 9 (⟨[#v[1, 2]], some (#v[0, 3], 1), 1⟩ : Stub) =
    ok (⟨[], none, 1⟩, [some 1, some 2, some 3]) := by
  have := C135_collect_partial release64 9 (⟨[#v[1, 2]], some (#v[0, 3], 1), 1⟩ : Stub)
    ⟨[], some (#v[0, 3], 1), 1⟩ ⟨[], none, 1⟩ [#v[1, 2]] (some (#v[0, 3], 1)) 1
    (.step rfl (.done rfl)) rfl rfl (by decide) (by decide) (by decide) (by decide)
    (by rintro p n h; cases h; decide) (by simp)
  rw [this]
  rfl

end Faster
