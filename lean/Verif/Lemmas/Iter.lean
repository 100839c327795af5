import Verif.Lemmas.Stream
/-
`SIMDIter` over any array which represents a list, the blanket `end`, and
`SIMDMap`.
-/
namespace Faster
open Res SIMDSized SIMDIterable SIMDIterator

/-- The array `a` behaves as the list `l`: length, full-vector loads inside the
bounds, and scalar loads. -/
structure Represents {A α : Type} {w : Nat} [SIMDSized A] [SIMDArray A α w] (c : Cfg) (a : A)
    (l : List α) : Prop where
  scalarLen : scalarLen c a = ok l.length
  loadUnchecked : ∀ (o : Nat) (h : o + w ≤ l.length),
    SIMDArray.loadUnchecked c a o = ok (windowAt l o w h)
  loadScalarUnchecked : ∀ (i : Nat) (h : i < l.length),
    SIMDArray.loadScalarUnchecked c a i = ok l[i]

theorem represents_slice {α : Type} {w : Nat} (c : Cfg) (l : List α) :
    Represents c (⟨l⟩ : Slice α w) l where
  scalarLen := rfl
  loadUnchecked o h := by
    have h3 : w ≤ l.length - o := by omega
    simp only [SIMDArray.loadUnchecked, loadUnchecked_ok h]
    cases c.debug <;> simp [sliceFrom_ok (show o ≤ l.length by omega), h3]
  loadScalarUnchecked i h := by
    simp [SIMDArray.loadScalarUnchecked, h, getUnchecked]

section
variable {A α : Type} {w : Nat} [SIMDSized A] [SIMDArray A α w]

theorem represents_iter {c : Cfg} {a : A} {l : List α} (h : Represents c a l) (p : Nat)
    (d : Vector α w) : Represents c (⟨p, a, d⟩ : SIMDIter A α w) l where
  scalarLen := h.scalarLen
  loadUnchecked := h.loadUnchecked
  loadScalarUnchecked := h.loadScalarUnchecked

theorem simdIter_next_some {c : Cfg} {a : A} {l : List α} (h : Represents c a l) {p : Nat}
    {d : Vector α w} (hp : p + w ≤ l.length) (hu : l.length < c.usize) :
    next c (⟨p, a, d⟩ : SIMDIter A α w) = ok (some (windowAt l p w hp), ⟨p + w, a, d⟩) := by
  have e := (represents_iter h p d).loadUnchecked p hp
  simp only [SIMDIterable.next, SIMDIter.next]
  rw [uadd_ok (by omega), (represents_iter h p d).scalarLen]
  simp only [ok_bind, hp, if_true, SIMDIter.advance]
  rw [e, uadd_ok (by omega)]
  simp

theorem simdIter_next_none {c : Cfg} {a : A} {l : List α} (h : Represents c a l) {p : Nat}
    {d : Vector α w} (hp : l.length < p + w) (hu : p + w < c.usize) :
    next c (⟨p, a, d⟩ : SIMDIter A α w) = ok (none, ⟨p, a, d⟩) := by
  simp only [SIMDIterable.next, SIMDIter.next]
  rw [uadd_ok (by omega), (represents_iter h p d).scalarLen]
  simp only [ok_bind]
  rw [if_neg (by omega)]

/-- All of `next` from any position. -/
theorem simdIter_runs {c : Cfg} {a : A} {l : List α} (h : Represents c a l)
    (d : Vector α w) (hw : 0 < w) (hu : l.length + w < c.usize) :
    ∀ (p : Nat), p + w < c.usize →
    Runs c (⟨p, a, d⟩ : SIMDIter A α w) (fullWindows w (l.drop p))
      (ok ⟨p + (l.length - p) / w * w, a, d⟩) := by
  intro p
  induction hk : l.length - p using Nat.strongRecOn generalizing p with
  | _ n ih =>
    intro hpu
    by_cases hp : p + w ≤ l.length
    · rw [fullWindows_cons hw (by simp; omega), List.drop_drop]
      have e : windowAt (l.drop p) 0 w (by simp; omega) = windowAt l p w hp := by
        ext i hi; simp [windowAt]
      rw [e]
      have e2 : p + n / w * w = (p + w) + (n - w) / w * w := by
        rw [Nat.div_eq_sub_div hw (show w ≤ n by omega), Nat.succ_mul]; omega
      rw [e2]
      exact Runs.step (simdIter_next_some h hp (by omega))
        (ih (n - w) (by omega) (p + w) (by omega) (by omega))
    · rw [fullWindows_short (by simp; omega), Nat.div_eq_of_lt (by omega)]
      have := simdIter_next_none (c := c) (p := p) (d := d) h (by omega) hpu
      simpa using Runs.done this

/-! ### The blanket `end` -/

section Blanket
variable {T : Type} [SIMDSized T] [SIMDIterable T α w] [SIMDArray T α w]

omit [SIMDIterable T α w] in
theorem elementLoop_ok {c : Cfg} {t : T} {l : List α} (h : Represents c t l) (emptyAmt : Nat) :
    ∀ (n i : Nat) (ret : Vector α w), i + n = l.length → (hlw : l.length + emptyAmt = w) →
      w < c.usize →
      elementLoop c t emptyAmt n i ret = ok (Vector.ofFn fun j =>
        if h : j.val < i + emptyAmt then ret[j] else l[j.val - emptyAmt]'(by omega)) := by
  intro n
  induction n with
  | zero =>
    intro i ret h1 h2 hu
    simp only [elementLoop]
    congr 1
    ext j hj
    simp only [Vector.getElem_ofFn]
    rw [dif_pos (by omega)]
    simp
  | succ n ih =>
    intro i ret h1 h2 hu
    simp only [elementLoop]
    rw [uadd_ok (by omega)]
    simp only [ok_bind]
    rw [h.loadScalarUnchecked i (by omega)]
    simp only [ok_bind]
    rw [replaceUnchecked_ok (by omega)]
    simp only [ok_bind]
    rw [ih (i + 1) _ (by omega) h2 hu]
    congr 1
    ext j hj
    simp only [Vector.getElem_ofFn, Fin.getElem_fin, Vector.getElem_set]
    by_cases h3 : i + emptyAmt = j
    · subst h3
      simp
    · by_cases h4 : j < i + emptyAmt
      · rw [dif_pos (by omega), if_neg h3, dif_pos h4]
      · rw [dif_neg (by omega), dif_neg h4]

/-- The vector computed by `end` (both branches). -/
theorem endVec_ok {c : Cfg} {t : T} {l : List α} (h : Represents c t l) (p : Nat)
    (hp : p < l.length) (hr : l.length - p ≤ w) (hs : p = 0 ∨ w < l.length)
    (hu : w < c.usize) :
    endVec c t l.length p (w - (l.length - p)) = ok (padFront (dflt t) (l.drop p)) := by
  unfold endVec
  have hd : (l.drop p).length = l.length - p := by simp
  split
  · rename_i hwl
    rw [usub_ok (by omega)]
    simp only [ok_bind]
    rw [h.loadUnchecked _ (by omega)]
    simp only [ok_bind]
    rw [mergePartitioned_ok _ _ _ _ (by omega)]
    congr 1
    ext j hj
    rw [padFront_getElem _ _ _ _ (by omega)]
    simp only [Vector.getElem_ofFn, windowAt, List.getElem_drop, Fin.getElem_fin]
    by_cases h3 : j < w - (l.length - p)
    · rw [if_pos h3, dif_pos (by omega)]
    · rw [if_neg h3, dif_neg (by omega)]
      congr 1; omega
  · rename_i hwl
    have hp0 : p = 0 := by omega
    subst hp0
    rw [elementLoop_ok h _ _ _ _ (by omega) (by omega) hu]
    congr 1
    ext j hj
    rw [padFront_getElem _ _ _ _ (by omega)]
    simp only [Vector.getElem_ofFn, List.drop_zero, Nat.sub_zero, Nat.zero_add]
    by_cases h3 : j < w - l.length
    · rw [dif_pos h3, dif_pos h3]; simp
    · rw [dif_neg h3, dif_neg h3]

theorem blanketEnd_ok {c : Cfg} {t t' : T} {l : List α} (h : Represents c t l) {p : Nat}
    (hpos : scalarPos c t = ok p) (hadv : advance c t (l.length - p) = ok t')
    (hr : l.length - p ≤ w) (hs : p < l.length → p = 0 ∨ w < l.length)
    (hu : w < c.usize) :
    blanketEnd c t = if p < l.length
      then ok (some (padFront (dflt t) (l.drop p), w - (l.length - p)), t')
      else ok (none, t) := by
  simp only [blanketEnd, hpos, h.scalarLen, ok_bind]
  split
  · rename_i hp
    rw [usub_ok (show p ≤ l.length by omega)]
    simp only [ok_bind]
    rw [usub_ok hr]
    simp only [ok_bind]
    rw [endVec_ok h p hp hr (hs hp) hu]
    simp only [ok_bind, finalize, hpos, h.scalarLen]
    rw [usub_ok (show p ≤ l.length by omega)]
    simp only [ok_bind, hadv]
  · rfl

end Blanket

theorem simdIter_end {c : Cfg} {a : A} {l : List α} (h : Represents c a l) {p : Nat}
    {d : Vector α w} (hr : l.length - p ≤ w) (hs : p < l.length → p = 0 ∨ w < l.length)
    (hu : l.length + w < c.usize) :
    end_ c (⟨p, a, d⟩ : SIMDIter A α w) = if p < l.length
      then ok (some (padFront d (l.drop p), w - (l.length - p)), ⟨l.length, a, d⟩)
      else ok (none, ⟨p, a, d⟩) := by
  by_cases hp : p < l.length
  · exact blanketEnd_ok (t' := ⟨l.length, a, d⟩) (represents_iter h p d) rfl
      (by simp only [SIMDIterable.advance, SIMDIter.advance]
          rw [uadd_ok (by omega)]
          simp; omega) hr hs (by omega)
  · rw [if_neg hp]
    simp [SIMDIterator.end_, blanketEnd, SIMDIterable.scalarPos, SIMDSized.scalarLen,
      h.scalarLen, hp]

/-- Outcome of `end` after all full groups of `l` were produced. -/
def tailOf (d : Vector α w) (l : List α) : Option (Vector α w × Nat) :=
  if l.length % w = 0 then none else some (padFront d (leftover w l), w - l.length % w)

/-- A complete pass over a `SIMDIter` from the start. -/
theorem simdIter_emits {c : Cfg} {a : A} {l : List α} (h : Represents c a l)
    (d : Vector α w) (hw : 0 < w) (hu : l.length + w < c.usize) :
    Emits c (⟨0, a, d⟩ : SIMDIter A α w) (fullWindows w l)
      (ok (tailOf d l, ⟨l.length, a, d⟩)) := by
  have h1 := simdIter_runs h d hw hu 0 (by omega)
  simp only [List.drop_zero, Nat.zero_add, Nat.sub_zero] at h1
  refine ⟨_, h1, ?_⟩
  have e := Nat.div_add_mod l.length w
  rw [Nat.mul_comm] at e
  have hm := Nat.mod_lt l.length hw
  simp only [ok_bind]
  rw [simdIter_end h (by omega) _ hu]
  · simp only [tailOf, leftover]
    by_cases h0 : l.length % w = 0
    · rw [if_pos h0, if_neg (by omega)]
      congr 3; omega
    · rw [if_neg h0, if_pos (by omega)]
      congr 4; omega
  · intro hlt
    by_cases hl : l.length < w
    · left; simp [Nat.div_eq_of_lt hl]
    · right
      have := Nat.le_mul_of_pos_left w (Nat.div_pos (Nat.le_of_not_lt hl) hw)
      omega

end
end Faster
