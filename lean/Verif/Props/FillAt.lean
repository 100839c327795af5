import Verif.Props.FillDriver
import Verif.Props.CollectAt
/-
C08, C09: what `scalar_fill` and `scalar_collect` do at every position of the iterator, also at those
where `end` fails and behind the end, for every buffer, every closure and all sizes of vectors.
-/
namespace Faster
open Res SIMDSized SIMDIterable SIMDIterator

/-! ### `scalar_collect`, all sizes of vectors -/

section
variable {I β : Type} {w : Nat} [SIMDSized I] [SIMDIterator I β w] [Packable β]

/-- `scalarCollect_emits_over` for an iterator whose `len` is larger than the number of vectors. -/
theorem scalarCollect_over_part {c : Cfg} {it it' : I} {vs : List (Vector β w)} {p : Vector β w}
    {n L : Nat}
    (h : Emits c it vs (ok (some (p, n), it'))) (fuel : Nat) (hf : vs.length < fuel)
    (hw : 0 < w) (hn : w < n) (hL : SIMDIterable.len c it = ok L) (hv : vs.length ≤ L)
    (hu : (L + 1) * w + n < c.usize) :
    scalarCollect c fuel it = if vs = [] then badAccess c else if vs.length * w < n then panic else
      ok (it', ((clobber n (vs ++ [p])).take (vs.length * w + w - n)).map some) := by
  obtain ⟨r, h1, h2⟩ := h
  have hL1 : L + 1 ≤ (L + 1) * w := Nat.le_mul_of_pos_right _ hw
  have e1 : (L + 1) * w = L * w + w := Nat.succ_mul _ w
  have hvw : vs.length * w ≤ L * w := Nat.mul_le_mul_right w hv
  simp only [scalarCollect, hL, ok_bind]
  rw [uadd_ok (by omega)]
  simp only [ok_bind]
  rw [umul_ok (by omega)]
  have e0 : (RVec.withCapacity ((L + 1) * w) : RVec β).setLen ((L + 1) * w) =
      ok ⟨List.replicate ((L + 1) * w) none, (L + 1) * w⟩ := by
    simp [RVec.setLen, RVec.withCapacity]
  have e2 : (⟨List.replicate ((L + 1) * w) none, (L + 1) * w⟩ : RVec β).slice =
      List.replicate ((L + 1) * w) none := by
    simp [RVec.slice]
  simp only [ok_bind]
  rw [e0]
  simp only [ok_bind, e2]
  rw [fillLoop_runs some h1 fuel _ 0 _ hf (by simp; omega) (by omega)]
  cases r with
  | ok it1 =>
    simp only [ok_bind] at h2
    simp only [ok_bind, ← h2, Nat.zero_add]
    rw [fillTail_over c some p n vs Packed.default _ hw hn (by simp; omega) (by simp; omega)]
    split
    · simp
    · split
      · simp
      · have hcl := clobber_length n vs p (by omega)
        simp only [ok_bind]
        rw [uadd_ok (by omega)]
        simp only [ok_bind]
        rw [usub_ok (by omega)]
        simp only [ok_bind, splice_zero, List.length_map, hcl]
        have hle : w + vs.length * w - n ≤ vs.length * w := by omega
        simp only [RVec.setLen, RVec.putSlice, RVec.slice, List.length_append, List.length_map, hcl,
          List.length_drop, List.length_replicate]
        rw [if_pos (by omega)]
        simp only [ok_bind]
        rw [List.append_assoc, List.take_append_of_le_length (by simp [hcl]; omega), List.map_take,
          Nat.add_comm w]
  | _ => simp at h2

variable {δ σ : Type}

/-- All cases of `scalar_collect`, for any iterator which calls `f` on `vs` in `next` and on the
vector of `t` in `end`. -/
theorem collect_outcome {c : Cfg} (f : FnMut σ δ (Vector β w)) (st : σ) (vs : List δ)
    (t : Option (δ × Nat)) (mk : σ → I) {m : I} {L : Nat}
    (h : Emits c m (mapRun f st vs).1 ((mapRun f st vs).2 >>= fun st' => match t with
      | none => ok (none, mk st')
      | some (p, n) => f st' p >>= fun q => ok (some (q.1, n), mk q.2)))
    (fuel : Nat) (hf : vs.length < fuel) (hw : 0 < w)
    (hL : SIMDIterable.len c m = ok L) (hv : vs.length ≤ L)
    (hL2 : t = none → ∀ s, SIMDIterable.len c (mk s) = ok L)
    (hu : (L + 1) * w + zpadOf t < c.usize) :
    scalarCollect c fuel m = callAll f st (zwithTail vs t) >>= fun q =>
      if w < zpadOf t then
        if vs.length = 0 then badAccess c
        else if vs.length * w < zpadOf t then panic
        else ok (mk q.2, ((clobber (zpadOf t) q.1).take (vs.length * w + w - zpadOf t)).map some)
      else ok (mk q.2, (unpad (zpadOf t) q.1).map some ++
        List.replicate (if t.isNone then (L - vs.length) * w else 0) none) := by
  have hle := mapRun_length_le f st vs
  have hfail : ∀ {e : Res (Option (Vector β w × Nat) × I)}, Emits c m (mapRun f st vs).1 e →
      (∀ x, e ≠ ok x) → ∀ {X : Res (I × List (Option β))}, X = (e >>= fun _ => X) →
      scalarCollect c fuel m = X := by
    intro e he hne X hX
    rw [scalarCollect_emits he fuel (by omega) hw hL (by omega) (by omega)
      (fun _ _ _ h => absurd h (hne _)) (fun _ h => absurd h (hne _))]
    rw [hX]
    cases e with
    | ok a => exact absurd rfl (hne _)
    | _ => rfl
  rw [zwithTail, callAll_append, callAll_mapRun f st vs]
  cases hr : (mapRun f st vs).2 with
  | ok st' =>
    have hl := mapRun_length f st st' vs hr
    simp only [hr, ok_bind] at h
    rcases t with _ | ⟨p, n⟩
    · simp only at h
      rw [scalarCollect_emits_none h fuel (by omega) hw hL (by omega) (by omega) (hL2 rfl _)
        (Nat.le_refl _)]
      simp only [ok_bind, Option.toList_none, List.map_nil, callAll, zpadOf, Option.map_none,
        Option.getD_none, unpad_zero, List.append_nil, Nat.not_lt_zero, if_false, Option.isNone_none,
        if_true]
      congr 2
      have e1 : (L + 1) * w = L * w + w := Nat.succ_mul L w
      have e2 := Nat.mul_le_mul_right w hv
      rw [List.take_append, List.take_replicate, List.take_of_length_le (by
        rw [List.length_map, lanes_length, hl]; exact e2), List.length_map, lanes_length, hl,
        Nat.sub_mul, Nat.min_eq_left (by omega)]
    · simp only at h
      have e : zpadOf (some (p, n)) = n := rfl
      simp only [e] at hu ⊢
      simp only [ok_bind, Option.toList_some, List.map_cons, List.map_nil, callAll]
      cases hp : f st' p with
      | ok q =>
        simp only [hp, ok_bind] at h
        simp only [ok_bind]
        by_cases hn : w < n
        · rw [if_pos hn, scalarCollect_over_part h fuel (by omega) hw hn hL (by omega) (by omega), hl]
          simp only [← List.length_eq_zero_iff, hl]
        · rw [if_neg hn, scalarCollect_emits h fuel (by omega) hw hL (by omega) (by omega)
            (by rintro _ _ _ ⟨⟩; omega) (by rintro _ ⟨⟩)]
          simp [unpad_concat]
      | _ =>
        rw [hp] at h
        exact hfail h (by simp) rfl
  | _ =>
    rw [hr] at h
    exact hfail h (by simp) rfl

end

/-! ### Every position -/

/-- A `Driver`, and what it does where the fields of `Driver` say nothing: `end` at a position inside
of a collection which is not longer than a vector, and everything behind the end (up to `b`). -/
structure Everywhere {I α : Type} {w : Nat} [SIMDSized I] [SIMDIterator I α w] (c : Cfg)
    (S : Nat → I) (l : List α) (d : Vector α w) (more : Nat → Prop) (b : Nat) : Prop
    extends Driver c S l d more where
  bad : ∀ p, 0 < p → p < l.length → l.length ≤ w →
    SIMDIterator.end_ c (S p) = badAccess c
  past_pos : ∀ p, l.length < p → p < b → SIMDIterable.scalarPos c (S p) = ok p
  past_next : ∀ p, l.length < p → p < b → SIMDIterable.next c (S p) = ok (none, S p)
  past_end : ∀ p, l.length < p → p < b → SIMDIterator.end_ c (S p) = ok (none, S p)

/-- The blanket `end` inside of a collection which is not longer than a vector: the elements are
moved by their position, beyond the last lane. -/
theorem blanketEnd_bad {T α : Type} {w : Nat} [SIMDSized T] [SIMDIterable T α w] [SIMDArray T α w]
    {c : Cfg} {t : T} {l : List α} (h : Represents c t l) {p : Nat} (hp : scalarPos c t = ok p)
    (h0 : 0 < p) (h1 : p < l.length) (h2 : l.length ≤ w) (hu : l.length + w < c.usize) :
    blanketEnd c t = badAccess c := by
  simp only [blanketEnd, hp, h.scalarLen, ok_bind]
  rw [if_pos h1, usub_ok (by omega)]
  simp only [ok_bind]
  rw [usub_ok (by omega)]
  simp only [ok_bind, endVec]
  rw [if_neg (by omega), elementLoop_bad h _ _ _ _ (by omega) (by omega) (by omega) (by omega)]
  simp

/-- Slices, at every position at which `next` does not overflow. -/
theorem simdIter_everywhere {A α : Type} {w : Nat} [SIMDSized A] [SIMDArray A α w] {c : Cfg} {a : A}
    {l : List α} (h : Represents c a l) (d : Vector α w) (hw : 0 < w) (hu : l.length + w < c.usize) :
    Everywhere c (fun p => (⟨p, a, d⟩ : SIMDIter A α w)) l d (fun p => p + w ≤ l.length)
      (c.usize - w) where
  toDriver := simdIter_driver h d hw hu
  bad p h0 h1 h2 := blanketEnd_bad (represents_iter h p d) rfl h0 h1 h2 hu
  past_pos p _ _ := rfl
  past_next p h1 h2 := by
    simp only [SIMDIterable.next, SIMDIter.next]
    rw [uadd_ok (by omega)]
    simp only [ok_bind, SIMDSized.scalarLen, h.scalarLen]
    rw [if_neg (by omega)]
  past_end p h1 h2 := by
    rw [simdIter_end_exact h p d hu, if_pos (by omega)]

/-- Strided iterators, at every position at which `next` does not overflow. -/
theorem stride_everywhere {A α : Type} {w : Nat} [SIMDSized A] [SIMDArray A α w] [Packable α]
    {c : Cfg} {a : A} {l : List α} (h : Represents c a l) {s k : Nat}
    (hk : k < s) (d : Vector α w) (hw : 0 < w) (hu : l.length + s * (w + 1) < c.usize) :
    Everywhere c (fun p => (⟨a, k + s * p, k, s, d⟩ : PackedStride A α w)) (strided s k l hk) d
      (fun p => k + s * (p + w) < l.length) ((c.usize - s * w) / s) := by
  have hs : 0 < s := by omega
  have hsl := strided_length s k l hk
  have hpos : ∀ p, scalarPos c (⟨a, k + s * p, k, s, d⟩ : PackedStride A α w) = ok p := by
    intro p
    simp only [SIMDIterable.scalarPos]
    rw [usub_ok (by omega)]
    simp only [ok_bind]
    rw [udiv_ok hs, Nat.add_sub_cancel_left, Nat.mul_div_cancel_left _ hs]
  refine ⟨stride_driver h hk d hw hu, ?_, ?_, ?_, ?_⟩
  · intro p h0 h1 h2
    have h3 : w + 1 ≤ s * (w + 1) := Nat.le_mul_of_pos_left _ hs
    have h4 := Nat.div_le_self l.length s
    exact blanketEnd_bad (represents_stride h hk _ d hw hu) (hpos p) h0 h1 h2 (by omega)
  · intro p _ _; exact hpos p
  · intro p h1 h2
    rw [Nat.lt_div_iff_mul_lt hs] at h2
    rw [hsl] at h1
    have h3 : l.length < s * (p + 1) := by
      have := Nat.lt_mul_div_succ l.length hs
      exact Nat.lt_of_lt_of_le this (Nat.mul_le_mul_left s (by omega))
    have h4 : s * w ≥ s := Nat.le_mul_of_pos_right s hw
    rw [Nat.mul_succ] at h3
    rw [Nat.mul_comm] at h2
    simp only [SIMDIterable.next, PackedStride.next]
    rw [umul_ok (by omega)]
    simp only [ok_bind]
    rw [uadd_ok (by omega), h.scalarLen]
    simp only [ok_bind]
    rw [if_neg (by omega)]
  · intro p h1 _
    have hr := represents_stride h hk (k + s * p) d hw hu
    simp only [SIMDIterator.end_, blanketEnd, hpos p, hr.scalarLen, ok_bind]
    rw [if_neg (by omega)]

section
variable {I α β σ : Type} {w w' : Nat} [SIMDSized I] [SIMDIterator I α w] [Packable α] [Packable β]
  {c : Cfg} {S : Nat → I} {l : List α} {d : Vector α w} {more : Nat → Prop} {b : Nat}

/-- The positions at which `end` fails: the collection is not longer than a vector, and some but not
all of its elements are consumed. -/
abbrev Stuck (w p len : Nat) : Prop := 0 < p ∧ p < len ∧ len ≤ w

omit [Packable α] in
/-- The pass from any position. -/
theorem Everywhere.emits_at (h : Everywhere c S l d more b) (hw : 0 < w) (p : Nat) (hp : p < b)
    (k : Nat) (hk : ∀ i, i < k → more (p + i * w)) (hk' : ¬ more (p + k * w)) :
    Driver.count w (l.drop p) k ∧
      Emits c (S p) ((fullWindows w (l.drop p)).take k)
        (if Stuck w p l.length then badAccess c
          else ok (tailFrom d (l.drop p) k, S (max p l.length))) := by
  have hk0 : l.length < p + w → k = 0 := by
    intro h1
    rcases Nat.eq_zero_or_pos k with h2 | h2
    · exact h2
    · obtain ⟨h3, -⟩ := h.next_some _ (hk 0 h2)
      omega
  by_cases hpl : p ≤ l.length
  · have hr := h.toDriver.runs_exact hw k p hpl hk hk'
    obtain ⟨n, hr2, -, hc⟩ := h.toDriver.runs_from hw p hpl
    have hkl : k ≤ (l.drop p).length / w := by
      cases k with
      | zero => exact Nat.zero_le _
      | succ k =>
        obtain ⟨hle, -⟩ := h.next_some _ (hk k (by omega))
        rw [Nat.le_div_iff_mul_le hw, Nat.succ_mul, List.length_drop]
        omega
    have hnk : n = k := by
      have e := congrArg List.length (Runs.unique hr2 hr).1
      have := (Driver.count_cases hw hc).1
      rw [List.length_take, List.length_take, fullWindows_length] at e
      omega
    subst hnk
    refine ⟨hc, _, hr, ?_⟩
    simp only [ok_bind]
    obtain ⟨h1, h2, h3, -⟩ := Driver.count_cases hw hc
    rw [List.length_drop] at h2 h3
    by_cases hst : Stuck w p l.length
    · rw [if_pos hst, hk0 (by have := hst.1; have := hst.2.2; omega), Nat.zero_mul, Nat.add_zero,
        h.bad p hst.1 hst.2.1 hst.2.2]
    · rw [if_neg hst, h.end_ _ (by omega) hk', Nat.max_eq_right hpl]
      · simp only [tailFrom, List.length_drop, List.drop_drop]
        by_cases hlt : p + n * w < l.length
        · rw [if_pos hlt, if_pos (by omega)]
          rw [show l.length - (p + n * w) = l.length - p - n * w by omega]
        · rw [if_neg hlt, if_neg (by omega), show p + n * w = l.length by omega]
      · intro hlt
        by_cases hn : n = 0
        · rw [hn, Nat.zero_mul, Nat.add_zero] at hlt ⊢
          simp only [Stuck] at hst
          omega
        · right
          have := Nat.le_mul_of_pos_left w (Nat.pos_of_ne_zero hn)
          omega
  · have h0 := hk0 (by omega)
    subst h0
    have e : l.drop p = [] := List.drop_eq_nil_of_le (by omega)
    rw [e, if_neg (by simp only [Stuck]; omega), Nat.max_eq_left (by omega)]
    refine ⟨by left; simp, _, Runs.done (h.past_next p (by omega) hp), ?_⟩
    simp only [ok_bind]
    rw [h.past_end p (by omega) hp]
    rfl

omit [Packable α] [Packable β] in
/-- A map whose source fails in `end` without having delivered anything. -/
theorem simdMap_stuck [Packable α] [Packable β] (f : FnMut σ (Vector α w) (Vector β w')) {it : I}
    (h : Emits c it [] (badAccess c)) (st : σ) :
    Emits c (⟨it, st, f⟩ : SIMDMap I σ α w β w') [] (badAccess c) := by
  obtain ⟨r, h1, h2⟩ := h
  refine ⟨_, simdMap_runs f h1 st, ?_⟩
  cases r with
  | ok it1 =>
    simp only [ok_bind] at h2
    simp only [mapRun, ok_bind, SIMDIterator.end_, SIMDMap.end_, ← h2]
    simp
  | _ =>
    revert h2
    unfold badAccess
    split <;> simp [mapRun]

/-- **C08.** What `scalar_fill` of a map does, exactly, at every position `p` of the iterator below, for
every buffer, every closure and all sizes of vectors. At a position inside of a collection which is
not longer than a vector, `end` fails before the closure is called. Otherwise everything is as
in `C08_fill_driver`, for the remaining elements. -/
theorem C08_fill_at (h : Everywhere c S l d more b) (fuel : Nat) (st : σ)
    (f : FnMut σ (Vector α w) (Vector β w')) (buf : List β) (p : Nat) (hp : p < b)
    (hw : 0 < w) (hw' : 0 < w') (hs : 0 < Packable.size β) (k n : Nat)
    (hk : ∀ i, i < k → more (p + i * w)) (hk' : ¬ more (p + k * w))
    (hn : n = (w - (l.length - p) % w) % w * Packable.size α / Packable.size β)
    (hlen' : buf.length + (k + 2) * w' + w * Packable.size α < c.usize) (hfuel : k < fuel) :
    scalarFill c fuel (simdMap (S p) st f) buf =
      if Stuck w p l.length then badAccess c
      else if buf.length < k * w' then
        callAll f st ((calls w d (l.drop p)).take (buf.length / w' + 1)) >>= fun _ => badAccess c
      else callAll f st (calls w d (l.drop p)) >>= fun q =>
        if w' < n then
          if k = 0 then badAccess c
          else if k * w' < n then panic
          else ok (⟨S (max p l.length), q.2, f⟩, splice buf 0 (clobber n q.1))
        else if p + k * w < l.length ∧ buf.length < k * w' + (w' - n) then
          if k = 0 then panic else badAccess c
        else ok (⟨S (max p l.length), q.2, f⟩, splice buf 0 (unpad n q.1)) := by
  obtain ⟨hc, he⟩ := h.emits_at hw p hp k hk hk'
  by_cases hst : Stuck w p l.length
  · rw [if_pos hst] at he ⊢
    have hk0 : k = 0 := by
      rcases Nat.eq_zero_or_pos k with h2 | h2
      · exact h2
      · obtain ⟨h3, -⟩ := h.next_some _ (hk 0 h2)
        have := hst.1; have := hst.2.2
        omega
    rw [hk0, List.take_zero] at he
    have := scalarFill_emits (simdMap_stuck f he st) fuel buf (by simp; omega) hw' (by simp)
      (by simp; rw [Nat.add_mul] at hlen'; omega)
      (by intro _ _ _ e; rw [badAccess] at e; split at e <;> cases e)
    rw [simdMap, this]
    simp
  rw [if_neg hst] at he ⊢
  have h1 := (Driver.count_cases hw hc).1
  have hl : ((fullWindows w (l.drop p)).take k).length = k := by
    rw [List.length_take, fullWindows_length]; omega
  have hle : ∀ v m, tailFrom d (l.drop p) k = some (v, m) →
      m * Packable.size α ≤ w * Packable.size α := by
    intro v m e
    exact Nat.mul_le_mul_right _ (tailFrom_some e)
  have hm := simdMap_emits f he hs (fun v m e => by have := hle v m e; omega) st
  have hp2 := padOf_tailFrom hw d (l.drop p) hc
  have ht := withTail_tailFrom hw d (l.drop p) hc
  have hsome := tailFrom_isSome d (l.drop p) k
  let t : Option (Vector α w × Nat) :=
    (tailFrom d (l.drop p) k).map fun q => (q.1, q.2 * Packable.size α / Packable.size β)
  have hpt : zpadOf t = n := by
    rw [hn, ← List.length_drop, ← hp2]
    simp only [t, zpadOf, padOf]
    cases tailFrom d (l.drop p) k <;> simp
  have htt : zwithTail ((fullWindows w (l.drop p)).take k) t = calls w d (l.drop p) := by
    rw [← ht, zwithTail, withTail]
    congr 1
    simp only [t]
    cases tailFrom d (l.drop p) k <;> rfl
  have hst : t.isSome = true ↔ p + k * w < l.length := by
    have : t.isSome = (tailFrom d (l.drop p) k).isSome := by simp [t]
    rw [this, hsome, List.length_drop]
    omega
  have hnle : n ≤ w * Packable.size α := by
    rw [hn]
    refine Nat.le_trans (Nat.div_le_self _ _) (Nat.mul_le_mul_right _ ?_)
    exact Nat.le_of_lt (Nat.mod_lt _ hw)
  have := fill_outcome f st ((fullWindows w (l.drop p)).take k) t
    (fun s => (⟨S (max p l.length), s, f⟩ : SIMDMap I σ α w β w')) (m := simdMap (S p) st f) (by
      refine cast (congrArg _ ?_) hm
      congr 1
      funext st'
      simp only [t]
      rcases tailFrom d (l.drop p) k with _ | ⟨v, m⟩ <;> rfl)
    fuel buf (by omega) hw' (by rw [hl, hpt]; omega)
  rw [hl, hpt, htt] at this
  refine this.trans ?_
  by_cases hb : buf.length < k * w'
  · rw [if_pos hb, if_pos hb, ← htt, zwithTail,
      List.take_append_of_le_length (l₂ := List.map _ _)]
    rw [hl]
    exact (Nat.div_lt_iff_lt_mul hw').mpr hb
  · rw [if_neg hb, if_neg hb]
    congr 1
    funext q
    simp only [hst]

/-- **C09.** What `scalar_collect` of a map does, exactly, at every position `p` of the iterator
below, for every closure and all sizes of vectors. -/
theorem C09_collect_any (h : Everywhere c S l d more b) (fuel : Nat) (st : σ)
    (f : FnMut σ (Vector α w) (Vector β w')) (p : Nat) (hp : p < b)
    (hw : 0 < w) (hw' : 0 < w') (hs : 0 < Packable.size β) (k n : Nat)
    (hk : ∀ i, i < k → more (p + i * w)) (hk' : ¬ more (p + k * w))
    (hn : n = (w - (l.length - p) % w) % w * Packable.size α / Packable.size β)
    (hlen' : (l.length / w + 1) * w' + w * Packable.size α < c.usize) (hfuel : k < fuel) :
    scalarCollect c fuel (simdMap (S p) st f) =
      if Stuck w p l.length then badAccess c
      else callAll f st (calls w d (l.drop p)) >>= fun q =>
        if w' < n then
          if k = 0 then badAccess c
          else if k * w' < n then panic
          else ok (⟨S (max p l.length), q.2, f⟩,
            ((clobber n q.1).take (k * w' + w' - n)).map some)
        else ok (⟨S (max p l.length), q.2, f⟩, (unpad n q.1).map some ++
          List.replicate (if p + k * w < l.length then 0 else (l.length / w - k) * w') none) := by
  obtain ⟨hc, he⟩ := h.emits_at hw p hp k hk hk'
  have h1 := (Driver.count_cases hw hc).1
  have hkl : k ≤ l.length / w :=
    Nat.le_trans h1 (Nat.div_le_div_right (by rw [List.length_drop]; omega))
  have hlen : SIMDIterable.len c (simdMap (S p) st f : SIMDMap I σ α w β w') = ok (l.length / w) :=
    h.len p
  by_cases hst : Stuck w p l.length
  · rw [if_pos hst] at he ⊢
    have hk0 : k = 0 := by
      rcases Nat.eq_zero_or_pos k with h2 | h2
      · exact h2
      · obtain ⟨h3, -⟩ := h.next_some _ (hk 0 h2)
        have := hst.1; have := hst.2.2
        omega
    rw [hk0, List.take_zero] at he
    have hbad : ∀ {X : Type} (x : X), (badAccess c : Res X) ≠ ok x := by
      intro X x e; rw [badAccess] at e; split at e <;> cases e
    have := scalarCollect_emits (simdMap_stuck f he st) fuel (by simp; omega) hw' hlen (by simp)
      (by omega) (fun _ _ _ e => absurd e (hbad _)) (fun _ e => absurd e (hbad _))
    rw [simdMap, this]
    simp
  rw [if_neg hst] at he ⊢
  have hl : ((fullWindows w (l.drop p)).take k).length = k := by
    rw [List.length_take, fullWindows_length]; omega
  have hle : ∀ v m, tailFrom d (l.drop p) k = some (v, m) →
      m * Packable.size α ≤ w * Packable.size α := by
    intro v m e
    exact Nat.mul_le_mul_right _ (tailFrom_some e)
  have hm := simdMap_emits f he hs (fun v m e => by have := hle v m e; omega) st
  have hp2 := padOf_tailFrom hw d (l.drop p) hc
  have ht := withTail_tailFrom hw d (l.drop p) hc
  have hsome := tailFrom_isSome d (l.drop p) k
  let t : Option (Vector α w × Nat) :=
    (tailFrom d (l.drop p) k).map fun q => (q.1, q.2 * Packable.size α / Packable.size β)
  have hpt : zpadOf t = n := by
    rw [hn, ← List.length_drop, ← hp2]
    simp only [t, zpadOf, padOf]
    cases tailFrom d (l.drop p) k <;> simp
  have htt : zwithTail ((fullWindows w (l.drop p)).take k) t = calls w d (l.drop p) := by
    rw [← ht, zwithTail, withTail]
    congr 1
    simp only [t]
    cases tailFrom d (l.drop p) k <;> rfl
  have hst : t.isNone = true ↔ ¬ p + k * w < l.length := by
    have : t.isSome = (tailFrom d (l.drop p) k).isSome := by simp [t]
    rw [Option.isNone_iff_eq_none, ← Option.not_isSome_iff_eq_none, this, hsome, List.length_drop]
    omega
  have hnle : n ≤ w * Packable.size α := by
    rw [hn]
    refine Nat.le_trans (Nat.div_le_self _ _) (Nat.mul_le_mul_right _ ?_)
    exact Nat.le_of_lt (Nat.mod_lt _ hw)
  have := collect_outcome f st ((fullWindows w (l.drop p)).take k) t
    (fun s => (⟨S (max p l.length), s, f⟩ : SIMDMap I σ α w β w')) (m := simdMap (S p) st f) (by
      refine cast (congrArg _ ?_) hm
      congr 1
      funext st'
      simp only [t]
      rcases tailFrom d (l.drop p) k with _ | ⟨v, m⟩ <;> rfl)
    fuel (by omega) hw' hlen (by omega) (fun _ s => h.len _) (by rw [hpt]; omega)
  rw [hl, hpt, htt] at this
  refine this.trans ?_
  congr 1
  funext q
  by_cases h6 : p + k * w < l.length
  · rw [if_neg (fun h => hst.1 h h6), if_pos h6]
  · rw [if_pos (hst.2 h6), if_neg h6]

/-- **C08**, every position: with a closure which always returns, `scalar_fill` of a map has undefined
behaviour exactly in release builds, where `end` fails, or where the buffer is too short as in
`C08_ub_driver`. -/
theorem C08_ub_at (h : Everywhere c S l d more b) (fuel : Nat) (G : Vector α w → Vector β w')
    (buf : List β) (p : Nat) (hp : p < b)
    (hw : 0 < w) (hw' : 0 < w') (hs : 0 < Packable.size β) (k n : Nat)
    (hk : ∀ i, i < k → more (p + i * w)) (hk' : ¬ more (p + k * w))
    (hn : n = (w - (l.length - p) % w) % w * Packable.size α / Packable.size β)
    (hlen' : buf.length + (k + 2) * w' + w * Packable.size α < c.usize) (hfuel : k < fuel) :
    scalarFill c fuel (simdMap (S p) () (pureFn G)) buf = ub ↔
      c.debug = false ∧ (Stuck w p l.length ∨ buf.length < k * w' ∨
        0 < k ∧ p + k * w < l.length ∧ n ≤ w' ∧ buf.length < k * w' + (w' - n) ∨
        k = 0 ∧ w' < n) := by
  have hbad : ∀ {X : Type}, (badAccess c : Res X) = ub ↔ c.debug = false := by
    intro X
    rw [badAccess]
    cases c.debug <;> simp
  rw [C08_fill_at h fuel () (pureFn G) buf p hp hw hw' hs k n hk hk' hn hlen' hfuel]
  simp only [callAll_pure, ok_bind]
  by_cases h0 : Stuck w p l.length
  · rw [if_pos h0, hbad]
    exact ⟨fun e => ⟨e, Or.inl h0⟩, And.left⟩
  rw [if_neg h0, or_iff_right h0]
  by_cases h1 : buf.length < k * w'
  · simp only [h1, if_true, hbad, true_or, and_true]
  · simp only [h1, if_false, false_or]
    by_cases h2 : w' < n
    · have h3 : ¬ n ≤ w' := by omega
      simp only [h2, if_true, h3, false_and, and_false, false_or, and_true]
      by_cases h4 : k = 0
      · simp only [h4, if_true, hbad, and_true]
      · simp only [h4, if_false, and_false, iff_false]
        split <;> simp
    · have h3 : n ≤ w' := by omega
      simp only [h2, if_false, h3, true_and, and_false, or_false]
      by_cases h4 : p + k * w < l.length ∧ buf.length < k * w' + (w' - n)
      · by_cases h5 : k = 0
        · rw [if_pos h4, if_pos h5]
          simp [h5]
        · have h6 : 0 < k := by omega
          rw [if_pos h4, if_neg h5, hbad]
          simp only [h6, h4.1, h4.2, and_self, and_true]
      · rw [if_neg h4]
        simp only [h4, and_false, reduceCtorEq]

/-- **C09**, every position: with a closure which always returns, `scalar_collect` of a map returns
initialised elements only, exactly if `end` does not fail and the last result has the lanes
computed to be empty (or these are taken off earlier results), and the iterator either ends with a
partial vector or was fresh up to less than a vector. -/
theorem C09_initialised_iff (h : Everywhere c S l d more b) (fuel : Nat)
    (G : Vector α w → Vector β w') (p : Nat) (hp : p < b)
    (hw : 0 < w) (hw' : 0 < w') (hs : 0 < Packable.size β) (k n : Nat)
    (hk : ∀ i, i < k → more (p + i * w)) (hk' : ¬ more (p + k * w))
    (hn : n = (w - (l.length - p) % w) % w * Packable.size α / Packable.size β)
    (hlen' : (l.length / w + 1) * w' + w * Packable.size α < c.usize) (hfuel : k < fuel) :
    (∃ it' out, scalarCollect c fuel (simdMap (S p) () (pureFn G)) = ok (it', out) ∧ none ∉ out) ↔
      ¬ Stuck w p l.length ∧
        if w' < n then 0 < k ∧ n ≤ k * w' else p + k * w < l.length ∨ k = l.length / w := by
  have hbad : ∀ {X : Type} (x : X), (badAccess c : Res X) ≠ ok x := by
    intro X x e; rw [badAccess] at e; split at e <;> cases e
  have hkl : k ≤ l.length / w := by
    have hc := (h.emits_at hw p hp k hk hk').1
    exact Nat.le_trans (Driver.count_cases hw hc).1
      (Nat.div_le_div_right (by rw [List.length_drop]; omega))
  rw [C09_collect_any h fuel () (pureFn G) p hp hw hw' hs k n hk hk' hn hlen' hfuel]
  simp only [callAll_pure, ok_bind]
  by_cases h0 : Stuck w p l.length
  · refine iff_of_false ?_ (fun e => e.1 h0)
    rintro ⟨_, _, e, -⟩
    rw [if_pos h0] at e
    exact hbad _ e
  simp only [h0, not_false_eq_true, true_and]
  by_cases h1 : w' < n
  · simp only [h1, if_true]
    by_cases h2 : k = 0
    · simp [h2, hbad]
    · by_cases h3 : k * w' < n
      · simp only [h2, h3, if_true, if_false]
        exact iff_of_false (by rintro ⟨_, _, e, -⟩; cases e) (by omega)
      · simp only [h2, h3, if_false]
        refine iff_of_true ⟨_, _, rfl, fun hm => ?_⟩ (by omega)
        obtain ⟨_, -, e⟩ := List.mem_map.1 hm
        cases e
  · simp only [h1, if_false, ok.injEq, Prod.mk.injEq]
    by_cases h2 : p + k * w < l.length
    · simp only [h2, if_true, true_or, iff_true]
      exact ⟨_, _, ⟨rfl, rfl⟩, by simp⟩
    · simp only [h2, if_false, false_or]
      constructor
      · rintro ⟨it', out, ⟨-, rfl⟩, h3⟩
        simp only [List.mem_append, List.mem_replicate, not_or, not_and, not_true_eq_false,
          imp_false, Decidable.not_not] at h3
        rcases Nat.mul_eq_zero.1 (by simpa using h3.2) with h4 | h4 <;> omega
      · rintro rfl
        exact ⟨_, _, ⟨rfl, rfl⟩, by simp⟩

/-! ### Without a map -/

omit [Packable α] [Packable β] in
/-- The pass of an iterator, as that of its map with the identity. -/
theorem Everywhere.emits_id (h : Everywhere c S l d more b) (hw : 0 < w) (p : Nat) (hp : p < b)
    (k : Nat) (hk : ∀ i, i < k → more (p + i * w)) (hk' : ¬ more (p + k * w))
    (hst : ¬ Stuck w p l.length) :
    Emits c (S p) (mapRun (pureFn id) () ((fullWindows w (l.drop p)).take k)).1
      ((mapRun (pureFn id) () ((fullWindows w (l.drop p)).take k)).2 >>= fun st' =>
        match tailFrom d (l.drop p) k with
        | none => ok (none, S (max p l.length))
        | some (v, n) => pureFn id st' v >>= fun q => ok (some (q.1, n), S (max p l.length))) := by
  have he := (h.emits_at hw p hp k hk hk').2
  rw [if_neg hst] at he
  rw [mapRun_pure]
  simp only [List.map_id, ok_bind]
  rcases ht : tailFrom d (l.drop p) k with _ | ⟨v, n⟩
  · rw [ht] at he; exact he
  · rw [ht] at he
    simpa [pureFn] using he

theorem callAll_id {δ : Type} (vs : List δ) : callAll (pureFn id) () vs = ok (vs, ()) := by
  rw [callAll_pure, List.map_id]

/-- **C08**, iterators which are not mapped: what `scalar_fill` does, exactly, at every position and
for every buffer. -/
theorem C08_plain_at (h : Everywhere c S l d more b) (fuel : Nat) (buf : List α) (p : Nat) (hp : p < b)
    (hw : 0 < w) (k : Nat)
    (hk : ∀ i, i < k → more (p + i * w)) (hk' : ¬ more (p + k * w))
    (hlen' : buf.length + (k + 3) * w < c.usize) (hfuel : k < fuel) :
    scalarFill c fuel (S p) buf =
      if Stuck w p l.length then badAccess c
      else if buf.length < k * w then badAccess c
      else if buf.length < l.length - p then
        if k = 0 then panic else badAccess c
      else ok (S (max p l.length), splice buf 0 (l.drop p)) := by
  obtain ⟨hc, he⟩ := h.emits_at hw p hp k hk hk'
  rw [Nat.add_mul] at hlen'
  by_cases hst : Stuck w p l.length
  · rw [if_pos hst] at he ⊢
    have hk0 : k = 0 := by
      rcases Nat.eq_zero_or_pos k with h2 | h2
      · exact h2
      · obtain ⟨h3, -⟩ := h.next_some _ (hk 0 h2)
        have := hst.1; have := hst.2.2
        omega
    rw [hk0, List.take_zero] at he
    rw [scalarFill_emits he fuel buf (by simp; omega) hw (by simp) (by simp; omega)
      (by intro _ _ _ e; rw [badAccess] at e; split at e <;> cases e)]
    simp
  rw [if_neg hst]
  obtain ⟨h1, h2, h3, h4⟩ := Driver.count_cases hw hc
  have hl : ((fullWindows w (l.drop p)).take k).length = k := by
    rw [List.length_take, fullWindows_length]; omega
  have hz : zpadOf (tailFrom d (l.drop p) k) = (w - (l.drop p).length % w) % w :=
    padOf_tailFrom hw d (l.drop p) hc
  have ht : zwithTail ((fullWindows w (l.drop p)).take k) (tailFrom d (l.drop p) k) =
      calls w d (l.drop p) := withTail_tailFrom hw d (l.drop p) hc
  have hzw : (w - (l.drop p).length % w) % w < w := Nat.mod_lt _ hw
  have := fill_outcome (c := c) (m := S p) (pureFn id) () ((fullWindows w (l.drop p)).take k) (tailFrom d (l.drop p) k)
    (fun _ => S (max p l.length)) (by
      refine cast (congrArg _ ?_) (h.emits_id hw p hp k hk hk' hst)
      congr 1
      funext st'
      rcases tailFrom d (l.drop p) k with _ | ⟨v, m⟩ <;> rfl) fuel buf (by omega) hw
    (by rw [hl, hz, Nat.add_mul]; omega)
  rw [this, hl, hz, ht]
  simp only [callAll_id, ok_bind]
  rw [if_neg (by omega : ¬ w < (w - (l.drop p).length % w) % w), unpad_calls hw]
  simp only [tailFrom_isSome]
  rw [List.length_drop] at h1 h2 h3 h4 hzw ⊢
  by_cases h5 : buf.length < k * w
  · rw [if_pos h5, if_pos h5]
  rw [if_neg h5, if_neg h5]
  have hd := Nat.div_add_mod (l.length - p) w
  have hm := Nat.mod_lt (l.length - p) hw
  rw [Nat.mul_comm] at hd
  rw [Driver.count, List.length_drop] at hc
  have hiff : (k * w < l.length - p ∧ buf.length < k * w + (w - (w - (l.length - p) % w) % w)) ↔
      buf.length < l.length - p := by
    rcases hc with hc | ⟨hc, hc'⟩
    · rw [← hc] at hd
      by_cases h6 : (l.length - p) % w = 0
      · omega
      · rw [Nat.mod_eq_of_lt (a := w - (l.length - p) % w) (by omega)]
        omega
    · rw [hc, Nat.sub_zero, Nat.mod_self, Nat.sub_zero]
      rw [← hc', Nat.succ_mul] at hd
      omega
  simp only [hiff]

/-- **C09**, iterators which are not mapped: what `scalar_collect` does, exactly, at every position. -/
theorem C09_plain_at (h : Everywhere c S l d more b) (fuel : Nat) (p : Nat) (hp : p < b)
    (hw : 0 < w) (k : Nat)
    (hk : ∀ i, i < k → more (p + i * w)) (hk' : ¬ more (p + k * w))
    (hlen' : (l.length / w + 2) * w < c.usize) (hfuel : k < fuel) :
    scalarCollect c fuel (S p) =
      if Stuck w p l.length then badAccess c
      else ok (S (max p l.length), (l.drop p).map some ++
        List.replicate (if p + k * w < l.length then 0 else (l.length / w - k) * w) none) := by
  obtain ⟨hc, he⟩ := h.emits_at hw p hp k hk hk'
  rw [Nat.add_mul] at hlen'
  have h1 := (Driver.count_cases hw hc).1
  have hkl : k ≤ l.length / w :=
    Nat.le_trans h1 (Nat.div_le_div_right (by rw [List.length_drop]; omega))
  by_cases hst : Stuck w p l.length
  · rw [if_pos hst] at he ⊢
    have hk0 : k = 0 := by
      rcases Nat.eq_zero_or_pos k with h2 | h2
      · exact h2
      · obtain ⟨h3, -⟩ := h.next_some _ (hk 0 h2)
        have := hst.1; have := hst.2.2
        omega
    rw [hk0, List.take_zero] at he
    have hbad : ∀ {X : Type} (x : X), (badAccess c : Res X) ≠ ok x := by
      intro X x e; rw [badAccess] at e; split at e <;> cases e
    rw [scalarCollect_emits he fuel (by simp; omega) hw (h.len p) (by simp)
      (by rw [Nat.add_mul]; omega) (fun _ _ _ e => absurd e (hbad _)) (fun _ e => absurd e (hbad _))]
    simp
  rw [if_neg hst]
  have hl : ((fullWindows w (l.drop p)).take k).length = k := by
    rw [List.length_take, fullWindows_length]; omega
  have hz : zpadOf (tailFrom d (l.drop p) k) = (w - (l.drop p).length % w) % w :=
    padOf_tailFrom hw d (l.drop p) hc
  have ht : zwithTail ((fullWindows w (l.drop p)).take k) (tailFrom d (l.drop p) k) =
      calls w d (l.drop p) := withTail_tailFrom hw d (l.drop p) hc
  have hzw : (w - (l.drop p).length % w) % w < w := Nat.mod_lt _ hw
  have := collect_outcome (c := c) (m := S p) (pureFn id) () ((fullWindows w (l.drop p)).take k) (tailFrom d (l.drop p) k)
    (fun _ => S (max p l.length)) (by
      refine cast (congrArg _ ?_) (h.emits_id hw p hp k hk hk' hst)
      congr 1
      funext st'
      rcases tailFrom d (l.drop p) k with _ | ⟨v, m⟩ <;> rfl) fuel (by omega) hw (h.len p)
    (by omega) (fun _ _ => h.len _) (by rw [hz, Nat.add_mul]; omega)
  rw [this, hl, hz, ht]
  simp only [callAll_id, ok_bind]
  rw [if_neg (by omega : ¬ w < (w - (l.drop p).length % w) % w), unpad_calls hw]
  have hnone : (tailFrom d (l.drop p) k).isNone = true ↔ ¬ p + k * w < l.length := by
    rw [Option.isNone_iff_eq_none, ← Option.not_isSome_iff_eq_none, tailFrom_isSome, List.length_drop]
    omega
  by_cases h6 : p + k * w < l.length
  · rw [if_neg (fun h => hnone.1 h h6), if_pos h6]
  · rw [if_pos (hnone.2 h6), if_neg h6]

end

/-! ### Which vectors `next` delivers -/

/-- Slices: all full vectors of the remaining elements. -/
theorem slice_visits_at {w : Nat} (len p : Nat) (hw : 0 < w) :
    (∀ i, i < (len - p) / w → p + i * w + w ≤ len) ∧ ¬ p + (len - p) / w * w + w ≤ len := by
  have hd := Nat.div_add_mod (len - p) w
  have hm := Nat.mod_lt (len - p) hw
  rw [Nat.mul_comm] at hd
  refine ⟨fun i hi => ?_, by omega⟩
  have := Nat.mul_le_mul_right w hi
  rw [Nat.succ_mul] at this
  omega

/-- Strided iterators: all but those for which no element of the next group of `s` is there. -/
theorem stride_visits_at {s k w len : Nat} (p : Nat) (hk : k < s) (hw : 0 < w) :
    (∀ i, i < (len - 1 - k - s * p) / s / w → k + s * (p + i * w + w) < len) ∧
      ¬ k + s * (p + (len - 1 - k - s * p) / s / w * w + w) < len := by
  have hs : 0 < s := by omega
  rw [Nat.div_div_eq_div_mul]
  have hsw : 0 < s * w := Nat.mul_pos hs hw
  have hd := Nat.div_add_mod (len - 1 - k - s * p) (s * w)
  have hm := Nat.mod_lt (len - 1 - k - s * p) hsw
  generalize (len - 1 - k - s * p) / (s * w) = q at *
  have e : ∀ i, s * (p + i * w + w) = s * p + s * w * i + s * w := by
    intro i
    rw [Nat.mul_add, Nat.mul_add, Nat.mul_comm i w, Nat.mul_assoc]
  refine ⟨fun i hi => ?_, ?_⟩
  · have := Nat.mul_le_mul_left (s * w) hi
    rw [Nat.mul_succ] at this
    rw [e]
    omega
  · rw [e]
    omega

section
variable {α β σ : Type} {w w' : Nat} [Packable α] [Packable β]

/-- **C08**, maps of slices, every position. -/
theorem C08_fill_at_slice (c : Cfg) (fuel : Nat) (data : List α) (d : Vector α w) (st : σ)
    (f : FnMut σ (Vector α w) (Vector β w')) (buf : List β) (p : Nat) (hp : p + w < c.usize)
    (hw : 0 < w) (hw' : 0 < w') (hs : 0 < Packable.size β) (k n : Nat) (hk : k = (data.length - p) / w)
    (hn : n = (w - (data.length - p) % w) % w * Packable.size α / Packable.size β)
    (hlen : data.length + w < c.usize)
    (hlen' : buf.length + (k + 2) * w' + w * Packable.size α < c.usize) (hfuel : k < fuel) :
    scalarFill c fuel (simdMap (⟨p, ⟨data⟩, d⟩ : SIMDIter (Slice α w) α w) st f) buf =
      if Stuck w p data.length then badAccess c
      else if buf.length < k * w' then
        callAll f st ((calls w d (data.drop p)).take (buf.length / w' + 1)) >>= fun _ => badAccess c
      else callAll f st (calls w d (data.drop p)) >>= fun q =>
        if w' < n then
          if k = 0 then badAccess c
          else if k * w' < n then panic
          else ok (⟨⟨max p data.length, ⟨data⟩, d⟩, q.2, f⟩, splice buf 0 (clobber n q.1))
        else if p + k * w < data.length ∧ buf.length < k * w' + (w' - n) then
          if k = 0 then panic else badAccess c
        else ok (⟨⟨max p data.length, ⟨data⟩, d⟩, q.2, f⟩, splice buf 0 (unpad n q.1)) := by
  subst hk
  obtain ⟨h1, h2⟩ := slice_visits_at data.length p hw
  exact C08_fill_at (simdIter_everywhere (represents_slice (w := w) c data) d hw hlen) fuel st f buf p
    (by omega) hw hw' hs _ n h1 h2 hn hlen' hfuel

/-- **C08**, maps of strided iterators, every position. -/
theorem C08_fill_at_stride (c : Cfg) (fuel : Nat) (data : List α) {s i : Nat} (hi : i < s)
    (d : Vector α w) (st : σ) (f : FnMut σ (Vector α w) (Vector β w')) (buf : List β)
    (p : Nat) (hp : s * (p + 1) + s * w ≤ c.usize)
    (hw : 0 < w) (hw' : 0 < w') (hs : 0 < Packable.size β) (k n : Nat)
    (hk : k = (data.length - 1 - i - s * p) / s / w)
    (hn : n = (w - (data.length / s - p) % w) % w * Packable.size α / Packable.size β)
    (hu : data.length + s * (w + 1) < c.usize)
    (hlen' : buf.length + (k + 2) * w' + w * Packable.size α < c.usize) (hfuel : k < fuel) :
    scalarFill c fuel
        (simdMap (⟨⟨data⟩, i + s * p, i, s, d⟩ : PackedStride (Slice α w) α w) st f) buf =
      if Stuck w p (data.length / s) then badAccess c
      else if buf.length < k * w' then
        callAll f st ((calls w d ((strided s i data hi).drop p)).take (buf.length / w' + 1)) >>=
          fun _ => badAccess c
      else callAll f st (calls w d ((strided s i data hi).drop p)) >>= fun q =>
        if w' < n then
          if k = 0 then badAccess c
          else if k * w' < n then panic
          else ok (⟨⟨⟨data⟩, i + s * max p (data.length / s), i, s, d⟩, q.2, f⟩,
            splice buf 0 (clobber n q.1))
        else if p + k * w < data.length / s ∧ buf.length < k * w' + (w' - n) then
          if k = 0 then panic else badAccess c
        else ok (⟨⟨⟨data⟩, i + s * max p (data.length / s), i, s, d⟩, q.2, f⟩,
          splice buf 0 (unpad n q.1)) := by
  subst hk
  obtain ⟨h1, h2⟩ := stride_visits_at (len := data.length) p hi hw
  have := C08_fill_at (stride_everywhere (represents_slice (w := w) c data) hi d hw hu) fuel st f buf p
    (by rw [Nat.lt_iff_add_one_le, Nat.le_div_iff_mul_le (by omega), Nat.mul_comm]; omega)
    hw hw' hs _ n h1 h2 (by rw [strided_length]; exact hn) hlen' hfuel
  rw [strided_length] at this
  exact this

/-- **C09**, maps of slices, every position and all sizes of vectors. -/
theorem C09_collect_any_slice (c : Cfg) (fuel : Nat) (data : List α) (d : Vector α w) (st : σ)
    (f : FnMut σ (Vector α w) (Vector β w')) (p : Nat) (hp : p + w < c.usize)
    (hw : 0 < w) (hw' : 0 < w') (hs : 0 < Packable.size β) (k n : Nat) (hk : k = (data.length - p) / w)
    (hn : n = (w - (data.length - p) % w) % w * Packable.size α / Packable.size β)
    (hlen : data.length + w < c.usize)
    (hlen' : (data.length / w + 1) * w' + w * Packable.size α < c.usize) (hfuel : k < fuel) :
    scalarCollect c fuel (simdMap (⟨p, ⟨data⟩, d⟩ : SIMDIter (Slice α w) α w) st f) =
      if Stuck w p data.length then badAccess c
      else callAll f st (calls w d (data.drop p)) >>= fun q =>
        if w' < n then
          if k = 0 then badAccess c
          else if k * w' < n then panic
          else ok (⟨⟨max p data.length, ⟨data⟩, d⟩, q.2, f⟩,
            ((clobber n q.1).take (k * w' + w' - n)).map some)
        else ok (⟨⟨max p data.length, ⟨data⟩, d⟩, q.2, f⟩, (unpad n q.1).map some ++
          List.replicate (if p + k * w < data.length then 0 else (data.length / w - k) * w') none) := by
  subst hk
  obtain ⟨h1, h2⟩ := slice_visits_at data.length p hw
  exact C09_collect_any (simdIter_everywhere (represents_slice (w := w) c data) d hw hlen) fuel st f p
    (by omega) hw hw' hs _ n h1 h2 hn hlen' hfuel

/-- **C09**, strided iterators which are not mapped, every position. -/
theorem C09_plain_stride (c : Cfg) (fuel : Nat) (data : List α) {s i : Nat} (hi : i < s)
    (d : Vector α w) (p : Nat) (hp : s * (p + 1) + s * w ≤ c.usize) (hw : 0 < w) (k : Nat)
    (hk : k = (data.length - 1 - i - s * p) / s / w)
    (hu : data.length + s * (w + 1) < c.usize)
    (hlen' : (data.length / s / w + 2) * w < c.usize) (hfuel : k < fuel) :
    scalarCollect c fuel (⟨⟨data⟩, i + s * p, i, s, d⟩ : PackedStride (Slice α w) α w) =
      if Stuck w p (data.length / s) then badAccess c
      else ok (⟨⟨data⟩, i + s * max p (data.length / s), i, s, d⟩,
        ((strided s i data hi).drop p).map some ++ List.replicate
          (if p + k * w < data.length / s then 0 else (data.length / s / w - k) * w) none) := by
  subst hk
  obtain ⟨h1, h2⟩ := stride_visits_at (len := data.length) p hi hw
  have := C09_plain_at (stride_everywhere (represents_slice (w := w) c data) hi d hw hu) fuel p
    (by rw [Nat.lt_iff_add_one_le, Nat.le_div_iff_mul_le (by omega), Nat.mul_comm]; omega)
    hw _ h1 h2 (by rw [strided_length]; exact hlen') hfuel
  rw [strided_length] at this
  exact this

end

/-! ### Zips -/

section
variable {I R α γ δ : Type} {w : Nat} [SIMDSized I] [SIMDIterator I α w] [Packable α]
  [ZipRest R γ] [LawfulRest R γ δ w]
  {c : Cfg} {S : Nat → I} {r : R} {rows : List (α × δ)} {dv : Vector (α × δ) w} {more : Nat → Prop}
  {b : Nat}

/-- The pass of a zip from any position. -/
theorem zip_emits_at (h : Everywhere c S (rows.map Prod.fst) (dv.map Prod.fst) more b) (hw : 0 < w)
    (hr : LawfulRest.Rep c r (rows.map Prod.snd) (dv.map Prod.snd))
    (hu : rows.length + w < c.usize) (p : Nat) (hp : p < b) (k : Nat)
    (hk : ∀ i, i < k → more (p + i * w)) (hk' : ¬ more (p + k * w)) :
    Driver.count w (rows.drop p) k ∧
      ZEmits c (⟨S p, r⟩ : Zip I R) (((fullWindows w (rows.drop p)).take k).map (packRow R))
        (if Stuck w p rows.length then badAccess c
          else ok ((tailFrom dv (rows.drop p) k).map fun q => (packRow R q.1, q.2),
            ⟨S (max p rows.length), r⟩)) := by
  have hc : Driver.count w (rows.drop p) k := by
    have := (h.emits_at hw p hp k hk hk').1
    rw [← List.map_drop] at this
    simpa only [Driver.count, List.length_map] using this
  refine ⟨hc, ?_⟩
  have hk0 : rows.length < p + w → k = 0 := by
    intro h1
    rcases Nat.eq_zero_or_pos k with h2 | h2
    · exact h2
    · obtain ⟨h3, -⟩ := h.next_some _ (hk 0 h2)
      rw [List.length_map] at h3
      omega
  by_cases hpl : p ≤ rows.length
  · refine ⟨_, zip_runs_exact h.toDriver hw hr (by omega) k p hpl hk hk', ?_⟩
    simp only [ok_bind]
    obtain ⟨h1, h2, h3, -⟩ := Driver.count_cases hw hc
    rw [List.length_drop] at h2 h3
    by_cases hst : Stuck w p rows.length
    · have h4 := h.bad p hst.1 (by rw [List.length_map]; exact hst.2.1)
        (by rw [List.length_map]; exact hst.2.2)
      rw [if_pos hst, hk0 (by have := hst.1; have := hst.2.2; omega), Nat.zero_mul, Nat.add_zero]
      simp only [SIMDZippedIterator.end_, Zip.end_, h.pos p (by rw [List.length_map]; omega), h4,
        ok_bind, badAccess_bind]
    · rw [if_neg hst, zip_end h.toDriver hr (by omega) _ (by omega) hk', Nat.max_eq_right hpl]
      · simp only [tailFrom, List.length_drop, List.drop_drop]
        by_cases hlt : p + k * w < rows.length
        · rw [if_pos hlt, if_pos (by omega),
            show rows.length - (p + k * w) = rows.length - p - k * w by omega]
          rfl
        · rw [if_neg hlt, if_neg (by omega), show p + k * w = rows.length by omega]
          rfl
      · intro hlt
        by_cases hn : k = 0
        · rw [hn, Nat.zero_mul, Nat.add_zero] at hlt ⊢
          simp only [Stuck] at hst
          omega
        · right
          have := Nat.le_mul_of_pos_left w (Nat.pos_of_ne_zero hn)
          omega
  · have h0 := hk0 (by omega)
    subst h0
    have e : rows.drop p = [] := List.drop_eq_nil_of_le (by omega)
    have hp1 : (rows.map Prod.fst).length < p := by rw [List.length_map]; omega
    rw [e, if_neg (by simp only [Stuck]; omega), Nat.max_eq_left (by omega)]
    refine ⟨_, ZRuns.done (z' := ⟨S p, r⟩) ?_, ?_⟩
    · simp only [SIMDZippedIterator.next, Zip.next, h.past_pos p hp1 hp, h.past_next p hp1 hp, ok_bind]
    · simp only [SIMDZippedIterator.end_, Zip.end_, h.past_pos p hp1 hp, h.past_end p hp1 hp, ok_bind]
      rfl

/-- A map of a zip whose first iterator fails in `end` without having delivered anything. -/
theorem zipMap_stuck {β σ : Type} [Packable β] {w' : Nat} (f : FnMut σ (Vector α w × γ) (Vector β w'))
    {z : Zip I R} (h : ZEmits c z [] (badAccess c)) (st : σ) :
    Emits c (⟨z, st, f⟩ : SIMDZipMap (Zip I R) σ (Vector α w × γ) β w') [] (badAccess c) := by
  obtain ⟨r, h1, h2⟩ := h
  refine ⟨_, zipMap_runs f h1 st, ?_⟩
  cases r with
  | ok it1 =>
    simp only [ok_bind] at h2
    simp only [mapRun, ok_bind, SIMDIterator.end_, SIMDZipMap.end_, ← h2]
    simp
  | _ =>
    revert h2
    unfold badAccess
    split <;> simp [mapRun]

/-- What the map of a zip at any position does, in the shape of `fill_outcome` and
`collect_outcome`. -/
theorem zip_map_at {β σ : Type} [Packable β] {w' : Nat}
    (h : Everywhere c S (rows.map Prod.fst) (dv.map Prod.fst) more b) (hw : 0 < w)
    (hr : LawfulRest.Rep c r (rows.map Prod.snd) (dv.map Prod.snd))
    (hu : rows.length + w < c.usize) (st : σ)
    (f : FnMut σ (Vector α w × γ) (Vector β w')) (p : Nat) (hp : p < b) (hs : 0 < Packable.size β)
    (k n : Nat) (hk : ∀ i, i < k → more (p + i * w)) (hk' : ¬ more (p + k * w))
    (hn : n = (w - (rows.length - p) % w) % w * Packable.size α / Packable.size β)
    (hvec : w * Packable.size α < c.usize) (hst : ¬ Stuck w p rows.length) :
    ∃ (vs : List (Vector α w × γ)) (t : Option ((Vector α w × γ) × Nat)),
      vs.length = k ∧ zpadOf t = n ∧ (t.isSome = true ↔ p + k * w < rows.length) ∧
      zwithTail vs t = (calls w dv (rows.drop p)).map (packRow R) ∧
      Emits c (zsimdMap ⟨S p, r⟩ st f) (mapRun f st vs).1 ((mapRun f st vs).2 >>= fun st' =>
        match t with
        | none => ok (none,
            (⟨⟨S (max p rows.length), r⟩, st', f⟩ : SIMDZipMap (Zip I R) σ (Vector α w × γ) β w'))
        | some (v, m) => f st' v >>= fun q =>
          ok (some (q.1, m), ⟨⟨S (max p rows.length), r⟩, q.2, f⟩)) := by
  obtain ⟨hc, he⟩ := zip_emits_at h hw hr hu p hp k hk hk'
  rw [if_neg hst] at he
  have h1 := (Driver.count_cases hw hc).1
  have hsz : SIMDZippedIterator.size (⟨S (max p rows.length), r⟩ : Zip I R) = Packable.size α := rfl
  have hm := zipMap_emits f he hs (by
    intro v m e
    rcases ht : tailFrom dv (rows.drop p) k with _ | ⟨q, m'⟩
    · rw [ht] at e; cases e
    · rw [ht] at e
      simp only [Option.map_some, Option.some.injEq, Prod.mk.injEq] at e
      have h5 := tailFrom_some ht
      have h6 : m * Packable.size α ≤ w * Packable.size α := Nat.mul_le_mul_right _ (by omega)
      rw [hsz]
      omega) st
  have hp2 := padOf_tailFrom hw dv (rows.drop p) hc
  have ht := zwithTail_tailFrom (R := R) (dv := dv) hw hc
  have hsome := tailFrom_isSome dv (rows.drop p) k
  refine ⟨((fullWindows w (rows.drop p)).take k).map (packRow R),
    (tailFrom dv (rows.drop p) k).map fun q =>
      (packRow R q.1, q.2 * Packable.size α / Packable.size β), ?_, ?_, ?_, ?_, ?_⟩
  · rw [List.length_map, List.length_take, fullWindows_length]; omega
  · rw [hn, ← List.length_drop, ← hp2]
    simp only [zpadOf, padOf]
    cases tailFrom dv (rows.drop p) k <;> simp
  · rw [Option.isSome_map, hsome, List.length_drop]
    omega
  · rw [← ht, zwithTail, zwithTail]
    congr 1
    cases tailFrom dv (rows.drop p) k <;> rfl
  · refine cast (congrArg _ ?_) hm
    congr 1
    funext st'
    simp only [hsz]
    rcases tailFrom dv (rows.drop p) k with _ | ⟨v, m⟩ <;> rfl

/-- **C08**, zips of any arity, every position of the first iterator. -/
theorem C08_zip_at {β σ : Type} [Packable β] {w' : Nat}
    (h : Everywhere c S (rows.map Prod.fst) (dv.map Prod.fst) more b) (hw : 0 < w)
    (hr : LawfulRest.Rep c r (rows.map Prod.snd) (dv.map Prod.snd))
    (hu : rows.length + w < c.usize) (fuel : Nat) (st : σ)
    (f : FnMut σ (Vector α w × γ) (Vector β w')) (buf : List β) (p : Nat) (hp : p < b)
    (hw' : 0 < w') (hs : 0 < Packable.size β) (k n : Nat)
    (hk : ∀ i, i < k → more (p + i * w)) (hk' : ¬ more (p + k * w))
    (hn : n = (w - (rows.length - p) % w) % w * Packable.size α / Packable.size β)
    (hlen' : buf.length + (k + 2) * w' + w * Packable.size α < c.usize) (hfuel : k < fuel) :
    scalarFill c fuel (zsimdMap (⟨S p, r⟩ : Zip I R) st f) buf =
      if Stuck w p rows.length then badAccess c
      else if buf.length < k * w' then
        callAll f st (((calls w dv (rows.drop p)).map (packRow R)).take (buf.length / w' + 1)) >>=
          fun _ => badAccess c
      else callAll f st ((calls w dv (rows.drop p)).map (packRow R)) >>= fun q =>
        if w' < n then
          if k = 0 then badAccess c
          else if k * w' < n then panic
          else ok (⟨⟨S (max p rows.length), r⟩, q.2, f⟩, splice buf 0 (clobber n q.1))
        else if p + k * w < rows.length ∧ buf.length < k * w' + (w' - n) then
          if k = 0 then panic else badAccess c
        else ok (⟨⟨S (max p rows.length), r⟩, q.2, f⟩, splice buf 0 (unpad n q.1)) := by
  by_cases hst : Stuck w p rows.length
  · obtain ⟨hc, he⟩ := zip_emits_at h hw hr hu p hp k hk hk'
    rw [if_pos hst] at he ⊢
    have hk0 : k = 0 := by
      rcases Nat.eq_zero_or_pos k with h2 | h2
      · exact h2
      · obtain ⟨h3, -⟩ := h.next_some _ (hk 0 h2)
        rw [List.length_map] at h3
        have := hst.1; have := hst.2.2
        omega
    rw [hk0, List.take_zero, List.map_nil] at he
    have := scalarFill_emits (zipMap_stuck f he st) fuel buf (by simp; omega) hw' (by simp)
      (by simp; rw [Nat.add_mul] at hlen'; omega)
      (by intro _ _ _ e; rw [badAccess] at e; split at e <;> cases e)
    rw [zsimdMap, this]
    simp
  rw [if_neg hst]
  obtain ⟨vs, t, hl, hpt, hsome, htt, he⟩ :=
    zip_map_at h hw hr hu st f p hp hs k n hk hk' hn (by omega) hst
  have hnle : n ≤ w * Packable.size α := by
    rw [hn]
    refine Nat.le_trans (Nat.div_le_self _ _) (Nat.mul_le_mul_right _ ?_)
    exact Nat.le_of_lt (Nat.mod_lt _ hw)
  have := fill_outcome (c := c) (m := zsimdMap ⟨S p, r⟩ st f) f st vs t
    (fun s => (⟨⟨S (max p rows.length), r⟩, s, f⟩ : SIMDZipMap (Zip I R) σ (Vector α w × γ) β w'))
    (by
      refine cast (congrArg _ ?_) he
      congr 1
      funext st'
      rcases t with _ | ⟨v, m⟩ <;> rfl) fuel buf (by omega) hw' (by rw [hl, hpt]; omega)
  rw [hl, hpt, htt] at this
  refine this.trans ?_
  by_cases hb : buf.length < k * w'
  · rw [if_pos hb, if_pos hb, ← htt, zwithTail,
      List.take_append_of_le_length (l₂ := List.map _ _)]
    rw [hl]
    exact (Nat.div_lt_iff_lt_mul hw').mpr hb
  · rw [if_neg hb, if_neg hb]
    congr 1
    funext q
    simp only [hsome]

/-- **C09**, zips of any arity, every position of the first iterator and all sizes of vectors. -/
theorem C09_zip_any {β σ : Type} [Packable β] {w' : Nat}
    (h : Everywhere c S (rows.map Prod.fst) (dv.map Prod.fst) more b) (hw : 0 < w)
    (hr : LawfulRest.Rep c r (rows.map Prod.snd) (dv.map Prod.snd))
    (hu : rows.length + w < c.usize) (fuel : Nat) (st : σ)
    (f : FnMut σ (Vector α w × γ) (Vector β w')) (p : Nat) (hp : p < b)
    (hw' : 0 < w') (hs : 0 < Packable.size β) (k n : Nat)
    (hk : ∀ i, i < k → more (p + i * w)) (hk' : ¬ more (p + k * w))
    (hn : n = (w - (rows.length - p) % w) % w * Packable.size α / Packable.size β)
    (hlen' : (rows.length / w + 1) * w' + w * Packable.size α < c.usize) (hfuel : k < fuel) :
    scalarCollect c fuel (zsimdMap (⟨S p, r⟩ : Zip I R) st f) =
      if Stuck w p rows.length then badAccess c
      else callAll f st ((calls w dv (rows.drop p)).map (packRow R)) >>= fun q =>
        if w' < n then
          if k = 0 then badAccess c
          else if k * w' < n then panic
          else ok (⟨⟨S (max p rows.length), r⟩, q.2, f⟩,
            ((clobber n q.1).take (k * w' + w' - n)).map some)
        else ok (⟨⟨S (max p rows.length), r⟩, q.2, f⟩, (unpad n q.1).map some ++
          List.replicate (if p + k * w < rows.length then 0 else (rows.length / w - k) * w') none) := by
  have hlen : ∀ p st, SIMDIterable.len c
      (zsimdMap (⟨S p, r⟩ : Zip I R) st f : SIMDZipMap (Zip I R) σ (Vector α w × γ) β w') =
      ok (rows.length / w) := by
    intro p st
    have := h.len p
    rw [List.length_map] at this
    exact this
  obtain ⟨hc, he⟩ := zip_emits_at h hw hr hu p hp k hk hk'
  have h1 := (Driver.count_cases hw hc).1
  have hkl : k ≤ rows.length / w :=
    Nat.le_trans h1 (Nat.div_le_div_right (by rw [List.length_drop]; omega))
  by_cases hst : Stuck w p rows.length
  · rw [if_pos hst] at he ⊢
    have hk0 : k = 0 := by
      rcases Nat.eq_zero_or_pos k with h2 | h2
      · exact h2
      · obtain ⟨h3, -⟩ := h.next_some _ (hk 0 h2)
        rw [List.length_map] at h3
        have := hst.1; have := hst.2.2
        omega
    rw [hk0, List.take_zero, List.map_nil] at he
    have hbad : ∀ {X : Type} (x : X), (badAccess c : Res X) ≠ ok x := by
      intro X x e; rw [badAccess] at e; split at e <;> cases e
    have := scalarCollect_emits (zipMap_stuck f he st) fuel (by simp; omega) hw' (hlen p st) (by simp)
      (by omega) (fun _ _ _ e => absurd e (hbad _)) (fun _ e => absurd e (hbad _))
    rw [zsimdMap, this]
    simp
  rw [if_neg hst]
  obtain ⟨vs, t, hl, hpt, hsome, htt, he⟩ :=
    zip_map_at h hw hr hu st f p hp hs k n hk hk' hn (by omega) hst
  have hnle : n ≤ w * Packable.size α := by
    rw [hn]
    refine Nat.le_trans (Nat.div_le_self _ _) (Nat.mul_le_mul_right _ ?_)
    exact Nat.le_of_lt (Nat.mod_lt _ hw)
  have := collect_outcome (c := c) (m := zsimdMap ⟨S p, r⟩ st f) f st vs t
    (fun s => (⟨⟨S (max p rows.length), r⟩, s, f⟩ : SIMDZipMap (Zip I R) σ (Vector α w × γ) β w'))
    (by
      refine cast (congrArg _ ?_) he
      congr 1
      funext st'
      rcases t with _ | ⟨v, m⟩ <;> rfl) fuel (by omega) hw' (hlen p st) (by omega) (fun _ s => hlen _ s) (by rw [hpt]; omega)
  rw [hl, hpt, htt] at this
  refine this.trans ?_
  congr 1
  funext q
  have hnone : t.isNone = true ↔ ¬ p + k * w < rows.length := by
    rw [Option.isNone_iff_eq_none, ← Option.not_isSome_iff_eq_none, hsome]
  by_cases h6 : p + k * w < rows.length
  · rw [if_neg (fun h => hnone.1 h h6), if_pos h6]
  · rw [if_pos (hnone.2 h6), if_neg h6]

end

/-- Position 1 of three bytes in vectors of four: the remaining two would go to the lanes 3 and 4. -/
example : (scalarFill release64 9 (simdMap (⟨1, ⟨[1#8, 2, 3]⟩, Vector.replicate 4 0⟩ :
      SIMDIter (Slice (BitVec 8) 4) (BitVec 8) 4) () (pureFn (Vector.map (· + 1#8) : Vector (BitVec 8) 4 → Vector (BitVec 8) 4))) [0, 0, 0]).bind (fun r => ok r.2) =
    ub := by decide +kernel

/-- Position 4 of ten bytes: four elements and the partial vector of two. -/
example : (scalarFill release64 9 (simdMap (⟨4, ⟨[1#8, 2, 3, 4, 5, 6, 7, 8, 9, 10]⟩,
      Vector.replicate 4 0⟩ : SIMDIter (Slice (BitVec 8) 4) (BitVec 8) 4) () (pureFn (Vector.map (· + 1#8) : Vector (BitVec 8) 4 → Vector (BitVec 8) 4)))
      [0, 0, 0, 0, 0, 0, 0]).bind (fun r => ok r.2) = ok [6, 7, 8, 9, 10, 11, 0] := by decide +kernel

/-- Behind the end: nothing is written. -/
example : (scalarFill release64 9 (simdMap (⟨5, ⟨[1#8, 2, 3]⟩, Vector.replicate 4 0⟩ :
      SIMDIter (Slice (BitVec 8) 4) (BitVec 8) 4) () (pureFn (Vector.map (· + 1#8) : Vector (BitVec 8) 4 → Vector (BitVec 8) 4))) [0, 0]).bind (fun r => ok r.2) =
    ok [0, 0] := by decide +kernel

/-- A strided iterator which is used up, collected: uninitialised elements. -/
example : (scalarCollect release64 9 (⟨⟨[1#8, 2, 3, 4, 5, 6, 7, 8]⟩, 0 + 2 * 4, 0, 2,
      Vector.replicate 2 0⟩ : PackedStride (Slice (BitVec 8) 2) (BitVec 8) 2)).bind (fun r => ok r.2) =
    ok [none, none, none, none] := by decide +kernel

end Faster
