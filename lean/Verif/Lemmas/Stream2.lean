import Verif.Lemmas.Map
/-
Further facts about consumers: too short buffers, partly consumed iterators,
`end` at arbitrary positions.
-/
namespace Faster
open Res SIMDSized SIMDIterable SIMDIterator

/-- What an out-of-contract `unsafe` access guarded by a `debug_assert!` does. -/
def badAccess {α : Type} (c : Cfg) : Res α := if c.debug then panic else ub

theorem storeUnchecked_bad {α : Type} {w : Nat} {c : Cfg} {v : Vector α w} {l : List α} {o : Nat}
    (h1 : o ≤ l.length) (h : l.length < o + w) :
    Packed.storeUnchecked c v l o = badAccess c := by
  have h3 : ¬ w ≤ l.length - o := by omega
  simp only [Packed.storeUnchecked, badAccess]
  rw [sliceFrom_ok h1]
  cases hd : c.debug <;> simp [h3]

@[simp] theorem badAccess_bind {α β : Type} (c : Cfg) (f : α → Res β) :
    ((badAccess c : Res α) >>= f) = badAccess c := by
  unfold badAccess; split <;> rfl

section
variable {I α : Type} {w : Nat} [SIMDSized I] [SIMDIterator I α w]

theorem fillLoop_runs_short {κ : Type} {c : Cfg} (inj : α → κ)
    {it : I} {vs : List (Vector α w)} {r : Res I} (h : Runs c it vs r) :
    ∀ (fuel : Nat) (buf : List κ) (o : Nat) (last : Vector α w), vs.length < fuel →
      o ≤ buf.length → buf.length < o + vs.length * w → buf.length + w < c.usize →
      fillLoop c inj fuel it buf o last = badAccess c := by
  induction h with
  | done h => intro fuel buf o last hf h1 h2 h3; simp at h2; omega
  | fail h hr => intro fuel buf o last hf h1 h2 h3; simp at h2; omega
  | @step it it1 v vs r h1 h2 ih =>
    intro fuel buf o last hf hb1 hb2 hu
    obtain ⟨f, rfl⟩ : ∃ f, fuel = f + 1 := ⟨fuel - 1, by omega⟩
    simp only [List.length_cons, Nat.succ_mul] at hf hb2
    simp only [fillLoop, h1, ok_bind]
    by_cases hs : o + w ≤ buf.length
    · rw [storeUnchecked_ok hs]
      simp only [ok_bind]
      rw [uadd_ok (by omega)]
      simp only [ok_bind]
      have hl : (splice buf o (Vector.map inj v).toList).length = buf.length :=
        splice_length _ _ _ (by simp; omega)
      exact ih f _ _ _ (by omega) (by omega) (by omega) (by omega)
    · rw [storeUnchecked_bad hb1 (by omega)]
      simp

theorem fillTailLoop_short {κ : Type} (c : Cfg) (inj : α → κ) (p : Vector α w) (n o : Nat) :
    ∀ (k i : Nat) (buf : List κ), i + k + n = w → o + i ≤ buf.length →
    buf.length + n < o + w → o + w < c.usize →
    fillTailLoop c inj p n o k i buf = panic := by
  intro k
  induction k with
  | zero => intro i buf h1 h2 h3; omega
  | succ k ih =>
    intro i buf h1 h2 h3 h4
    simp only [fillTailLoop]
    rw [uadd_ok (by omega)]
    simp only [ok_bind]
    rw [extractUnchecked_ok (by omega)]
    simp only [ok_bind]
    rw [uadd_ok (by omega)]
    simp only [ok_bind]
    by_cases hs : o + i < buf.length
    · rw [indexSet_ok hs]
      simp only [ok_bind]
      exact ih (i+1) _ (by omega) (by simp; omega) (by simpa using h3) h4
    · simp [indexSet, hs]

/-- `scalar_fill` into a buffer which is too short. -/
theorem scalarFill_short [Packable α] {c : Cfg} {it it' : I} {vs : List (Vector α w)}
    {t : Option (Vector α w × Nat)}
    (h : Emits c it vs (ok (t, it'))) (fuel : Nat) (buf : List α) (hf : vs.length < fuel)
    (hw : 0 < w) (hn : ∀ p n, t = some (p, n) → n ≤ w)
    (hb : buf.length < vs.length * w + (t.map fun q => w - q.2).getD 0)
    (hu : vs.length * w + w < c.usize) (hu2 : buf.length + w < c.usize) :
    scalarFill c fuel it buf = if vs = [] then panic else badAccess c := by
  obtain ⟨r, h1, h2⟩ := h
  simp only [scalarFill]
  by_cases hs : vs.length * w ≤ buf.length
  · rw [fillLoop_runs id h1 fuel buf 0 _ hf (by omega) (by omega)]
    cases r with
    | ok it1 =>
      simp only [ok_bind] at h2
      simp only [ok_bind, ← h2]
      rcases t with _ | ⟨p, n⟩
      · simp at hb; omega
      · have hn := hn p n rfl
        simp only [Option.map_some, Option.getD_some] at hb
        simp only [Nat.zero_add, fillTail]
        by_cases hv : vs = []
        · subst hv
          simp only [List.length_nil, Nat.zero_mul, lanes_nil, List.map_nil, splice_nil]
          rw [if_neg (by omega), usub_ok hn]
          simp only [ok_bind]
          simp at hb
          rw [fillTailLoop_short c id p n 0 (w - n) 0 buf (by omega) (by omega) (by omega)
            (by simp at hu; omega)]
          simp
        · have hpos : 0 < vs.length := List.length_pos_iff.mpr hv
          have hge : w ≤ vs.length * w := Nat.le_mul_of_pos_left w hpos
          have hl : (splice buf 0 ((lanes vs).map id)).length = buf.length :=
            splice_length _ _ _ (by simp [lanes_length]; omega)
          rw [if_pos (by omega), usub_ok (by omega)]
          simp only [ok_bind]
          rw [storeUnchecked_bad (by omega) (by omega), if_neg hv]
          simp
    | _ => simp at h2
  · have hv : vs ≠ [] := by
      intro e; subst e; simp at hs
    rw [fillLoop_runs_short id h1 fuel buf 0 _ hf (by omega) (by omega) hu2, if_neg hv]
    simp

/-- `scalar_collect` when there is no partial vector: the length of the result
comes from `len()`, whatever was produced. -/
theorem scalarCollect_emits_none [Packable α] {c : Cfg} {it it' : I} {vs : List (Vector α w)}
    {L L' : Nat}
    (h : Emits c it vs (ok (none, it'))) (fuel : Nat) (hf : vs.length < fuel) (hw : 0 < w)
    (hL : SIMDIterable.len c it = ok L) (hv : vs.length ≤ L)
    (hu : (L + 1) * w < c.usize)
    (hL2 : SIMDIterable.len c it' = ok L') (hle : L' ≤ L) :
    scalarCollect c fuel it =
      ok (it', ((lanes vs).map some ++ List.replicate ((L + 1) * w - vs.length * w) none).take
        (L' * w)) := by
  obtain ⟨r, h1, h2⟩ := h
  have hL1 : L + 1 ≤ (L + 1) * w := Nat.le_mul_of_pos_right _ hw
  have hvw : vs.length * w ≤ L * w := Nat.mul_le_mul_right w hv
  have hlw : L' * w ≤ L * w := Nat.mul_le_mul_right w hle
  have e1 : (L + 1) * w = L * w + w := Nat.succ_mul L w
  have hll := lanes_length vs
  simp only [scalarCollect, hL, ok_bind]
  rw [uadd_ok (by omega)]
  simp only [ok_bind]
  rw [umul_ok (by omega)]
  have e0 : (RVec.withCapacity ((L + 1) * w) : RVec α).setLen ((L + 1) * w) =
      ok ⟨List.replicate ((L + 1) * w) none, (L + 1) * w⟩ := by
    simp [RVec.setLen, RVec.withCapacity]
  have e2 : (⟨List.replicate ((L + 1) * w) none, (L + 1) * w⟩ : RVec α).slice =
      List.replicate ((L + 1) * w) none := by
    simp [RVec.slice]
  simp only [ok_bind]
  rw [e0]
  simp only [ok_bind, e2]
  rw [fillLoop_runs some h1 fuel _ 0 _ hf (by simp; omega) (by omega)]
  cases r with
  | ok it1 =>
    simp only [ok_bind] at h2
    simp only [ok_bind, ← h2, hL2]
    rw [umul_ok (by omega)]
    have e3 : L' * w ≤ (splice (List.replicate ((L + 1) * w) none) 0 ((lanes vs).map some) ++
        List.drop ((L + 1) * w) (List.replicate ((L + 1) * w) (none : Option α))).length := by
      simp [splice_zero, hll]; omega
    simp only [ok_bind, RVec.setLen, RVec.putSlice]
    simp only [e3, if_true, ok_bind, RVec.slice]
    simp [splice_zero, hll]
  | _ => simp at h2

end

/-! ### `end` of a slice iterator at an arbitrary position -/

section
variable {A α : Type} {w : Nat} [SIMDSized A] [SIMDArray A α w]

theorem elementLoop_bad {T : Type} [SIMDSized T] [SIMDArray T α w] {c : Cfg} {t : T}
    {l : List α} (h : Represents c t l) (emptyAmt : Nat) :
    ∀ (n i : Nat) (ret : Vector α w), i + n = l.length → 0 < n →
      w < l.length + emptyAmt → l.length + emptyAmt < c.usize →
      elementLoop c t emptyAmt n i ret = badAccess c := by
  intro n
  induction n with
  | zero => intro i ret h1 h2 h3; omega
  | succ n ih =>
    intro i ret h1 h2 h3 h4
    simp only [elementLoop]
    rw [uadd_ok (by omega)]
    simp only [ok_bind]
    rw [h.loadScalarUnchecked i (by omega)]
    simp only [ok_bind]
    by_cases hi : i + emptyAmt < w
    · rw [replaceUnchecked_ok hi]
      simp only [ok_bind]
      exact ih (i + 1) _ (by omega) (by omega) h3 h4
    · rw [replaceUnchecked_bad hi, ← badAccess]
      simp

/-- `end` at every position. -/
theorem simdIter_end_exact {c : Cfg} {a : A} {l : List α} (h : Represents c a l) (p : Nat)
    (d : Vector α w) (hu : l.length + w < c.usize) :
    end_ c (⟨p, a, d⟩ : SIMDIter A α w) =
      if l.length ≤ p then ok (none, ⟨p, a, d⟩)
      else if w < l.length - p then panic
      else if 0 < p ∧ l.length ≤ w then badAccess c
      else ok (some (padFront d (l.drop p), w - (l.length - p)), ⟨l.length, a, d⟩) := by
  by_cases h1 : l.length ≤ p
  · rw [if_pos h1]
    simp only [SIMDIterator.end_, blanketEnd, SIMDIterable.scalarPos, SIMDSized.scalarLen,
      h.scalarLen, ok_bind]
    rw [if_neg (by omega)]
  · rw [if_neg h1]
    by_cases h2 : w < l.length - p
    · rw [if_pos h2]
      have hr := represents_iter h p d
      simp only [SIMDIterator.end_, blanketEnd, SIMDIterable.scalarPos, hr.scalarLen, ok_bind]
      rw [if_pos (by omega), usub_ok (by omega)]
      simp only [ok_bind]
      unfold usub
      rw [if_neg (by omega)]
      cases hd : c.debug with
      | true => simp
      | false =>
        simp only [Bool.false_eq_true, if_false, ok_bind, endVec]
        rw [if_pos (by omega), usub_ok (by omega)]
        simp only [ok_bind]
        rw [hr.loadUnchecked _ (by omega)]
        have e : ¬ (c.usize + w - (l.length - p)) % c.usize < w := by
          rw [Nat.mod_eq_of_lt (by omega)]; omega
        simp [Packed.mergePartitioned, e]
    · rw [if_neg h2]
      by_cases h3 : 0 < p ∧ l.length ≤ w
      · rw [if_pos h3]
        have hr := represents_iter h p d
        simp only [SIMDIterator.end_, blanketEnd, SIMDIterable.scalarPos, hr.scalarLen, ok_bind]
        rw [if_pos (by omega), usub_ok (by omega)]
        simp only [ok_bind]
        rw [usub_ok (by omega)]
        simp only [ok_bind, endVec]
        rw [if_neg (by omega), elementLoop_bad hr _ _ _ _ (by omega) (by omega) (by omega)
          (by omega)]
        simp
      · rw [if_neg h3, simdIter_end h (by omega) (by omega) hu, if_pos (by omega)]

end
end Faster
