import Verif.Props.Fill
import Verif.Props.Zip
/-
C123, and the exact forms of C23: what a zip does with two collections whose
lengths (or lane widths) differ.

`zip` only compares numbers of full vectors (`C22_zip_check`), so for one lane
width it accepts lengths which differ within the last vector. The further
collections are then read with the position and the number of empty lanes of the
first one.
-/
namespace Faster
open Res SIMDSized SIMDIterable SIMDIterator

/-! ### `next_unchecked` and `end_unchecked` with any arguments -/

/-- `next_unchecked` of a slice iterator at every position. -/
theorem nextUnchecked_exact {β : Type} {w : Nat} (c : Cfg) (ys : List β) (q : Nat)
    (dy : Vector β w) (p : Nat) (hu : p + w < c.usize) :
    nextUnchecked c (⟨q, ⟨ys⟩, dy⟩ : SIMDIter (Slice β w) β w) p =
      if h : p + w ≤ ys.length then ok (windowAt ys p w h)
      else if c.debug ∨ ys.length < p then panic else ub := by
  by_cases h : p + w ≤ ys.length
  · rw [dif_pos h]
    simp only [nextUnchecked, (represents_iter (represents_slice c ys) q dy).loadUnchecked p h]
    cases c.debug
    · simp
    · simp only [if_true]
      rw [uadd_ok hu]
      simp [(represents_iter (represents_slice c ys) q dy).scalarLen, h, assert]
  · rw [dif_neg h]
    simp only [nextUnchecked, SIMDArray.loadUnchecked]
    cases hd : c.debug
    · simp only [Packed.loadUnchecked, sliceFrom, hd, Bool.false_eq_true, if_false, false_or]
      by_cases h2 : ys.length < p
      · rw [if_neg (by omega), if_pos h2]; rfl
      · rw [if_pos (by omega), if_neg h2]
        simp only [ok_bind, Packed.fromSliceUnchecked]
        rw [dif_neg (by simp; omega)]
    · simp only [if_true, true_or]
      rw [uadd_ok hu]
      simp only [ok_bind, SIMDSized.scalarLen]
      rw [show decide (p + w ≤ ys.length) = false by simp; omega]
      simp [assert]

section End
variable {T β : Type} {w : Nat} [SIMDSized T] [SIMDIterable T β w] [SIMDArray T β w]

omit [SIMDIterable T β w] in
/-- The loop of `end_unchecked` if all lanes exist. -/
theorem elementLoop_lanes {c : Cfg} {t : T} {l : List β} (h : Represents c t l) (e : Nat) :
    ∀ (n i : Nat) (ret : Vector β w), i + n = l.length → l.length + e ≤ w → w < c.usize →
      elementLoop c t e n i ret = ok (Vector.ofFn fun j =>
        if h : i + e ≤ j.val ∧ j.val < l.length + e then l[j.val - e]'(by omega) else ret[j]) := by
  intro n
  induction n with
  | zero =>
    intro i ret h1 h2 hu
    simp only [elementLoop]
    congr 1
    ext j hj
    simp only [Vector.getElem_ofFn]
    rw [dif_neg (by omega)]
    simp
  | succ n ih =>
    intro i ret h1 h2 hu
    simp only [elementLoop]
    rw [uadd_ok (by omega)]
    simp only [ok_bind]
    rw [h.loadScalarUnchecked i (by omega)]
    simp only [ok_bind]
    rw [replaceUnchecked_ok (by omega)]
    simp only [ok_bind]
    rw [ih (i + 1) _ (by omega) h2 hu]
    congr 1
    ext j hj
    simp only [Vector.getElem_ofFn, Fin.getElem_fin, Vector.getElem_set]
    by_cases h3 : i + e = j
    · subst h3
      rw [dif_neg (by omega), if_pos rfl, dif_pos (by omega)]
      congr 1; omega
    · by_cases h4 : i + e ≤ j ∧ j < l.length + e
      · rw [dif_pos (by omega), dif_pos h4]
      · rw [dif_neg (by omega), if_neg h3, dif_neg h4]

/-- The elements of `l` from `p` on at the lanes from `p + e` on; the other lanes
from `d`. -/
def placed {β : Type} {w : Nat} (d : Vector β w) (l : List β) (p e : Nat) : Vector β w :=
  Vector.ofFn fun j =>
    (l[j.val - e]?.filter fun _ => decide (p + e ≤ j.val)).getD d[j]

omit [SIMDSized T] [SIMDIterable T β w] [SIMDArray T β w] in
theorem placed_eq (d : Vector β w) (l : List β) (p e : Nat) :
    placed d l p e = Vector.ofFn fun j =>
      if h : p + e ≤ j.val ∧ j.val < l.length + e then l[j.val - e]'(by omega) else d[j] := by
  ext j hj
  simp only [placed, Vector.getElem_ofFn]
  by_cases h : p + e ≤ j ∧ j < l.length + e
  · rw [dif_pos h, List.getElem?_eq_getElem (by omega)]
    simp [Option.filter, h.1]
  · rw [dif_neg h]
    by_cases h1 : p + e ≤ j
    · rw [List.getElem?_eq_none (by omega)]; rfl
    · cases l[j - e]? <;> simp [Option.filter, h1]

/-- `end_unchecked` for every offset and every number of empty lanes. -/
theorem endUnchecked_exact {c : Cfg} {t : T} {l : List β} (h : Represents c t l) (p e : Nat)
    (hu : l.length + w < c.usize) (hue : l.length + e < c.usize) :
    endUnchecked c t p e =
      if c.debug ∧ (l.length ≤ p ∨ w < l.length - p ∨ e ≠ w - (l.length - p)) then panic
      else if w < l.length then
        (if e < w then ok (padFront (dflt t) (l.drop (l.length - (w - e)))) else panic)
      else if l.length ≤ p then ok (dflt t)
      else if w < l.length + e then badAccess c
      else ok (placed (dflt t) l p e) := by
  have hend : endVec c t l.length p e =
      if w < l.length then
        (if e < w then ok (padFront (dflt t) (l.drop (l.length - (w - e)))) else panic)
      else if l.length ≤ p then ok (dflt t)
      else if w < l.length + e then badAccess c
      else ok (placed (dflt t) l p e) := by
    unfold endVec
    by_cases h1 : w < l.length
    · rw [if_pos h1, if_pos h1, usub_ok (by omega)]
      simp only [ok_bind]
      rw [h.loadUnchecked _ (by omega)]
      simp only [ok_bind]
      by_cases h2 : e < w
      · rw [if_pos h2, mergePartitioned_ok _ _ _ _ h2]
        congr 1
        ext j hj
        have hlen : (l.drop (l.length - (w - e))).length = w - e := by simp; omega
        rw [padFront_getElem _ _ _ _ (by omega)]
        simp only [Vector.getElem_ofFn, windowAt, List.getElem_drop, Fin.getElem_fin]
        by_cases h3 : j < e
        · rw [if_pos h3, dif_pos (by omega)]
        · rw [if_neg h3, dif_neg (by omega)]
          congr 1; omega
      · rw [if_neg h2]
        simp [Packed.mergePartitioned, h2, assert]
    · rw [if_neg h1, if_neg h1]
      by_cases h2 : l.length ≤ p
      · rw [if_pos h2, show l.length - p = 0 by omega]
        rfl
      · rw [if_neg h2]
        by_cases h3 : w < l.length + e
        · rw [if_pos h3, elementLoop_bad h _ _ _ _ (by omega) (by omega) h3 hue]
        · rw [if_neg h3, elementLoop_lanes h _ _ _ _ (by omega) (by omega) (by omega), placed_eq]
  simp only [endUnchecked, h.scalarLen, ok_bind, debugAssert, hend]
  generalize (if w < l.length then
        (if e < w then ok (padFront (dflt t) (l.drop (l.length - (w - e)))) else panic)
      else if l.length ≤ p then ok (dflt t)
      else if w < l.length + e then badAccess c
      else ok (placed (dflt t) l p e)) = R
  cases hd : c.debug
  · simp
  · simp only [if_true, true_and]
    by_cases h1 : p < l.length
    · rw [usub_ok (by omega)]
      simp only [assert, decide_eq_true h1, if_true, ok_bind]
      by_cases h2 : l.length - p ≤ w
      · rw [usub_ok h2]
        by_cases h3 : e = w - (l.length - p)
        · rw [if_neg (show ¬ (l.length ≤ p ∨ w < l.length - p ∨ e ≠ w - (l.length - p)) by omega)]
          simp [h3]
        · rw [if_pos (show l.length ≤ p ∨ w < l.length - p ∨ e ≠ w - (l.length - p) by omega)]
          simp [h3]
      · rw [if_pos (show l.length ≤ p ∨ w < l.length - p ∨ e ≠ w - (l.length - p) by omega)]
        simp [usub, h2, hd]
    · rw [if_pos (show l.length ≤ p ∨ w < l.length - p ∨ e ≠ w - (l.length - p) by omega)]
      simp [assert, h1]

end End

/-! ### C23: single calls, any lengths, widths and positions -/

section Calls
variable {α β : Type} [Packable α] {w w' : Nat}

/-- The second vector of the last tuple: `end_unchecked(p, e)` of a slice `ys`. -/
def endSeen {β : Type} {w : Nat} (c : Cfg) (ys : List β) (dy : Vector β w) (p e : Nat) :
    Res (Vector β w) :=
  if c.debug ∧ (ys.length ≤ p ∨ w < ys.length - p ∨ e ≠ w - (ys.length - p)) then panic
  else if w < ys.length then
    (if e < w then ok (padFront dy (ys.drop (ys.length - (w - e)))) else panic)
  else if ys.length ≤ p then ok dy
  else if w < ys.length + e then badAccess c
  else ok (placed dy ys p e)

/-- **C23**, exactly what `next` does on a zip of two slices of any lengths and
lane widths, whatever the positions of both iterators. -/
theorem C23_next_exact (c : Cfg) (xs : List α) (ys : List β) (dx : Vector α w) (dy : Vector β w')
    (p q : Nat) (hl : xs.length < c.usize) (hp : p + w < c.usize) (hp' : p + w' < c.usize) :
    let z : Zip (SIMDIter (Slice α w) α w) (SIMDIter (Slice β w') β w' × Unit) :=
      ⟨⟨p, ⟨xs⟩, dx⟩, (⟨q, ⟨ys⟩, dy⟩, ())⟩
    SIMDZippedIterator.next c z =
      if hx : p + w ≤ xs.length then
        if hy : p + w' ≤ ys.length then
          ok (some (windowAt xs p w hx, windowAt ys p w' hy, ()),
            ⟨⟨p + w, ⟨xs⟩, dx⟩, (⟨q, ⟨ys⟩, dy⟩, ())⟩)
        else if c.debug ∨ ys.length < p then panic else ub
      else ok (none, z) := by
  intro z
  by_cases hx : p + w ≤ xs.length
  · have hn := simdIter_next_some (represents_slice c xs) (d := dx) hx (by omega)
    rw [dif_pos hx]
    simp only [z, SIMDZippedIterator.next, Zip.next, SIMDIterable.scalarPos, ok_bind, hn,
      ZipRest.nextAll, nextUnchecked_exact c ys q dy p hp']
    by_cases hy : p + w' ≤ ys.length
    · rw [dif_pos hy, dif_pos hy]; rfl
    · rw [dif_neg hy, dif_neg hy]
      split <;> rfl
  · have hn := simdIter_next_none (represents_slice c xs) (p := p) (d := dx) (by omega) (by omega)
    rw [dif_neg hx]
    simp only [z, SIMDZippedIterator.next, Zip.next, SIMDIterable.scalarPos, ok_bind, hn]

/-- **C23**, exactly what `end` does on a zip of two slices of any lengths and
lane widths, whatever the positions of both iterators. -/
theorem C23_end_exact (c : Cfg) (xs : List α) (ys : List β) (dx : Vector α w) (dy : Vector β w')
    (p q : Nat) (hx : xs.length + w < c.usize) (hy : ys.length + w' < c.usize)
    (hxy : ys.length + w < c.usize) :
    let z : Zip (SIMDIter (Slice α w) α w) (SIMDIter (Slice β w') β w' × Unit) :=
      ⟨⟨p, ⟨xs⟩, dx⟩, (⟨q, ⟨ys⟩, dy⟩, ())⟩
    SIMDZippedIterator.end_ c z =
      if xs.length ≤ p then ok (none, z)
      else if w < xs.length - p then panic
      else if 0 < p ∧ xs.length ≤ w then badAccess c
      else endSeen c ys dy p (w - (xs.length - p)) >>= fun v =>
        ok (some ((padFront dx (xs.drop p), v, ()), w - (xs.length - p)),
          ⟨⟨xs.length, ⟨xs⟩, dx⟩, (⟨q, ⟨ys⟩, dy⟩, ())⟩) := by
  intro z
  have he := simdIter_end_exact (represents_slice c xs) p dx hx
  have hu := endUnchecked_exact (represents_iter (represents_slice c ys) q dy) p
    (w - (xs.length - p)) hy (by omega)
  simp only [z, SIMDZippedIterator.end_, Zip.end_, SIMDIterable.scalarPos, ok_bind, he,
    ZipRest.endAll]
  by_cases h1 : xs.length ≤ p
  · simp only [if_pos h1, ok_bind]
  · by_cases h2 : w < xs.length - p
    · simp only [if_neg h1, if_pos h2, panic_bind]
    · by_cases h3 : 0 < p ∧ xs.length ≤ w
      · simp only [if_neg h1, if_neg h2, if_pos h3]
        unfold badAccess
        split <;> rfl
      · simp only [if_neg h1, if_neg h2, if_neg h3, ok_bind, hu]
        simp only [bind_assoc, ok_bind]
        rfl

/-- **C23**: the states in which a call is undefined behaviour; release builds only. -/
theorem C23_ub_iff (c : Cfg) (xs : List α) (ys : List β) (dx : Vector α w) (dy : Vector β w')
    (p q : Nat) (hp : p + w < c.usize) (hp' : p + w' < c.usize)
    (hx : xs.length + w < c.usize) (hy : ys.length + w' < c.usize)
    (hxy : ys.length + w < c.usize) :
    let z : Zip (SIMDIter (Slice α w) α w) (SIMDIter (Slice β w') β w' × Unit) :=
      ⟨⟨p, ⟨xs⟩, dx⟩, (⟨q, ⟨ys⟩, dy⟩, ())⟩
    (SIMDZippedIterator.next c z = ub ↔
      c.debug = false ∧ p + w ≤ xs.length ∧ p ≤ ys.length ∧ ys.length < p + w') ∧
    (SIMDZippedIterator.end_ c z = ub ↔
      c.debug = false ∧ p < xs.length ∧ xs.length ≤ p + w ∧
        (0 < p ∧ xs.length ≤ w ∨
         p < ys.length ∧ ys.length ≤ w' ∧ w' < ys.length + (w - (xs.length - p)))) := by
  intro z
  constructor
  · rw [C23_next_exact c xs ys dx dy p q (by omega) hp hp']
    by_cases h1 : p + w ≤ xs.length
    · rw [dif_pos h1]
      by_cases h2 : p + w' ≤ ys.length
      · rw [dif_pos h2]
        simp only [reduceCtorEq, false_iff]
        omega
      · rw [dif_neg h2]
        cases c.debug
        · by_cases h3 : ys.length < p
          · simp only [h3]; simp; omega
          · simp only [h3]; simp; omega
        · simp
    · rw [dif_neg h1]
      simp only [reduceCtorEq, false_iff]
      omega
  · rw [C23_end_exact c xs ys dx dy p q hx hy hxy]
    by_cases h1 : xs.length ≤ p
    · rw [if_pos h1]
      simp only [reduceCtorEq, false_iff]
      omega
    · rw [if_neg h1]
      by_cases h2 : w < xs.length - p
      · rw [if_pos h2]
        simp only [reduceCtorEq, false_iff]
        omega
      · rw [if_neg h2]
        by_cases h3 : 0 < p ∧ xs.length ≤ w
        · rw [if_pos h3]
          unfold badAccess
          cases c.debug
          · simp; omega
          · simp
        · rw [if_neg h3]
          unfold endSeen badAccess
          cases hd : c.debug
          · simp only [Bool.false_eq_true, false_and, if_false]
            by_cases h4 : w' < ys.length
            · rw [if_pos h4]
              split
              · simp only [ok_bind, reduceCtorEq, false_iff]; omega
              · simp only [panic_bind, reduceCtorEq, false_iff]; omega
            · rw [if_neg h4]
              by_cases h5 : ys.length ≤ p
              · rw [if_pos h5]
                simp only [ok_bind, reduceCtorEq, false_iff]; omega
              · rw [if_neg h5]
                by_cases h6 : w' < ys.length + (w - (xs.length - p))
                · rw [if_pos h6]
                  simp only [ub_bind, true_iff, true_and]; omega
                · rw [if_neg h6]
                  simp only [ok_bind, reduceCtorEq, false_iff]; omega
          · simp only [true_and, if_true, Bool.true_eq_false, false_and, iff_false]
            split
            · simp
            · split
              · split <;> simp
              · split
                · simp
                · split <;> simp

end Calls

/-! ### C123: complete passes over two slices of one lane width -/

section Pass
variable {α β : Type} [Packable α] {w : Nat}

/-- The second vector of the last tuple of a pass over slices of `n` elements and
`ys`, if `n` is not a multiple of `w`. -/
def secondTail {β : Type} {w : Nat} (c : Cfg) (n : Nat) (ys : List β) (dy : Vector β w) :
    Res (Vector β w) :=
  if ys.length = n then ok (padFront dy (leftover w ys))
  else if c.debug then panic
  else if w < ys.length then ok (padFront dy (ys.drop (ys.length - n % w)))
  else if ys.length < n then ok (placed dy (leftover w ys) 0 (w - n % w))
  else ub

/-- `end_unchecked` after the full vectors. -/
theorem endSeen_pass (c : Cfg) (n : Nat) (ys : List β) (dy : Vector β w) (hw : 0 < w)
    (hm : n / w = ys.length / w) (ha : n % w ≠ 0) :
    endSeen c ys dy (n / w * w) (w - n % w) = secondTail c n ys dy := by
  have h1 := Nat.div_add_mod n w
  have h2 := Nat.div_add_mod ys.length w
  have h3 := Nat.mod_lt n hw
  have h4 := Nat.mod_lt ys.length hw
  rw [Nat.mul_comm] at h1 h2
  rw [← hm] at h2
  have hl : leftover w ys = ys.drop (n / w * w) := by rw [leftover, ← hm]
  have hm0 : n / w * w = 0 ∨ w ≤ n / w * w := by
    rcases Nat.eq_zero_or_pos (n / w) with h | h
    · left; rw [h, Nat.zero_mul]
    · right; exact Nat.le_mul_of_pos_left w h
  unfold endSeen secondTail
  generalize n / w * w = p at *
  by_cases e : ys.length = n
  · rw [if_pos e, if_neg (by omega), hl]
    by_cases h5 : w < ys.length
    · rw [if_pos h5, if_pos (by omega)]
      congr 3; omega
    · have hp : p = 0 := by omega
      subst hp
      rw [if_neg h5, if_neg (by omega), if_neg (by omega)]
      congr 1
      rw [placed_eq]
      ext j hj
      rw [padFront_getElem _ _ _ _ (by simp; omega)]
      simp only [Vector.getElem_ofFn, List.drop_zero]
      by_cases h6 : j < w - ys.length
      · rw [dif_neg (by omega), dif_pos h6]; rfl
      · rw [dif_pos (by omega), dif_neg h6]
        congr 1; omega
  · rw [if_neg e]
    cases hd : c.debug
    · simp only [Bool.false_eq_true, false_and, if_false]
      by_cases h5 : w < ys.length
      · rw [if_pos h5, if_pos h5, if_pos (by omega)]
        congr 3; omega
      · rw [if_neg h5, if_neg h5]
        by_cases h6 : ys.length ≤ p
        · rw [if_pos h6, if_pos (by omega)]
          congr 1
          rw [placed_eq]
          ext j hj
          simp only [Vector.getElem_ofFn]
          rw [dif_neg (by rw [hl]; simp; omega)]; rfl
        · have hp : p = 0 := by omega
          subst hp
          rw [if_neg h6]
          by_cases h7 : ys.length < n
          · rw [if_pos h7, if_neg (by omega), hl, List.drop_zero]
          · rw [if_neg h7, if_pos (by omega)]
            simp [badAccess, hd]
    · rw [if_pos ⟨rfl, by omega⟩, if_pos rfl]

/-- The tuples of full vectors. -/
def fullPairs {α β : Type} (w : Nat) (xs : List α) (ys : List β) :
    List (Vector α w × Vector β w × Unit) :=
  List.zipWith (fun u v => (u, v, ())) (fullWindows w xs) (fullWindows w ys)

theorem lengths_runs (c : Cfg) (xs : List α) (ys : List β) (dx : Vector α w) (dy : Vector β w)
    (q : Nat) (hw : 0 < w) (hm : xs.length / w = ys.length / w) (hu : xs.length + w < c.usize) :
    ∀ k, k ≤ xs.length / w →
      ZRuns c (⟨⟨(xs.length / w - k) * w, ⟨xs⟩, dx⟩, (⟨q, ⟨ys⟩, dy⟩, ())⟩ :
          Zip (SIMDIter (Slice α w) α w) (SIMDIter (Slice β w) β w × Unit))
        ((fullPairs w xs ys).drop (xs.length / w - k))
        (ok ⟨⟨xs.length / w * w, ⟨xs⟩, dx⟩, (⟨q, ⟨ys⟩, dy⟩, ())⟩) := by
  have h1 := Nat.div_add_mod xs.length w
  have h2 := Nat.div_add_mod ys.length w
  have h3 := Nat.mod_lt xs.length hw
  have h4 := Nat.mod_lt ys.length hw
  rw [Nat.mul_comm] at h1 h2
  rw [← hm] at h2
  have hlen : (fullPairs w xs ys).length = xs.length / w := by
    simp [fullPairs, fullWindows_length, hm]
  intro k
  induction k with
  | zero =>
    intro _
    rw [Nat.sub_zero, List.drop_eq_nil_of_le (by omega)]
    refine ZRuns.done ?_
    rw [C23_next_exact c xs ys dx dy _ q (by omega) (by omega) (by omega), dif_neg (by omega)]
  | succ k ih =>
    intro hk
    have hi : xs.length / w - (k + 1) < (fullPairs w xs ys).length := by omega
    have hs : (xs.length / w - (k + 1)) * w + w = (xs.length / w - k) * w := by
      rw [show xs.length / w - k = xs.length / w - (k + 1) + 1 by omega, Nat.succ_mul]
    have hle : (xs.length / w - k) * w ≤ xs.length / w * w := Nat.mul_le_mul_right _ (by omega)
    rw [List.drop_eq_getElem_cons hi]
    refine ZRuns.step ?_ (by
      rw [show xs.length / w - (k + 1) + 1 = xs.length / w - k by omega]
      exact ih (by omega))
    rw [C23_next_exact c xs ys dx dy _ q (by omega) (by omega) (by omega), dif_pos (by omega),
      dif_pos (by omega)]
    simp only [fullPairs, List.getElem_zipWith, hs]
    simp [fullWindows, windowAt]

/-- `end` after the full vectors. -/
theorem lengths_end (c : Cfg) (xs : List α) (ys : List β) (dx : Vector α w) (dy : Vector β w)
    (q : Nat) (hw : 0 < w) (hm : xs.length / w = ys.length / w) (hu : xs.length + w < c.usize)
    (hy : ys.length + w < c.usize) :
    SIMDZippedIterator.end_ c (⟨⟨xs.length / w * w, ⟨xs⟩, dx⟩, (⟨q, ⟨ys⟩, dy⟩, ())⟩ :
        Zip (SIMDIter (Slice α w) α w) (SIMDIter (Slice β w) β w × Unit)) =
      if xs.length % w = 0 then ok (none, ⟨⟨xs.length, ⟨xs⟩, dx⟩, (⟨q, ⟨ys⟩, dy⟩, ())⟩)
        else secondTail c xs.length ys dy >>= fun v =>
          ok (some ((padFront dx (leftover w xs), v, ()), w - xs.length % w),
            ⟨⟨xs.length, ⟨xs⟩, dx⟩, (⟨q, ⟨ys⟩, dy⟩, ())⟩) := by
  have h1 := Nat.div_add_mod xs.length w
  have h3 := Nat.mod_lt xs.length hw
  rw [Nat.mul_comm] at h1
  have hm0 : xs.length / w * w = 0 ∨ w ≤ xs.length / w * w := by
    rcases Nat.eq_zero_or_pos (xs.length / w) with h | h
    · left; rw [h, Nat.zero_mul]
    · right; exact Nat.le_mul_of_pos_left w h
  rw [C23_end_exact c xs ys dx dy _ q hu hy hy]
  by_cases ha : xs.length % w = 0
  · rw [if_pos ha, if_pos (by omega), show xs.length / w * w = xs.length by omega]
  · rw [if_neg ha, if_neg (by omega), if_neg (by omega), if_neg (by omega),
      show xs.length - xs.length / w * w = xs.length % w by omega,
      endSeen_pass c xs.length ys dy hw hm ha, leftover]

/-- **C123**, `simd_do_each`, any closure, any two lengths: `zip` panics if the
numbers of full vectors differ; else the closure sees the full vectors of both
slices, then, if the first slice has further elements, the last ones of it
together with `secondTail`. -/
theorem C123_do_each_exact {σ : Type} (c : Cfg) (xs : List α) (ys : List β) (dx : Vector α w)
    (dy : Vector β w) (hw : 0 < w) (hu : xs.length + w < c.usize) (hy : ys.length + w < c.usize)
    (fuel : Nat) (st : σ) (f : FnMut σ (Vector α w × Vector β w × Unit) Unit)
    (hfuel : xs.length / w < fuel) :
    (do
      let z ← zip c (simdIter xs dx) (simdIter ys dy, ())
      let (_, st') ← zsimdDoEach c fuel z st f
      ok st') =
      if xs.length / w ≠ ys.length / w then panic
      else (do
        let (_, st') ← callAll f st (fullPairs w xs ys)
        (if xs.length % w = 0 then ok st'
          else (do
            let v ← secondTail c xs.length ys dy
            let (_, st'') ← f st' (padFront dx (leftover w xs), v, ())
            ok st''))) := by
  rw [C22_zip_check c xs ys dx dy hw hw hu hy]
  by_cases hm : xs.length / w = ys.length / w
  · rw [if_pos hm, if_neg (by simpa using hm)]
    have h1 := lengths_runs c xs ys dx dy 0 hw hm hu (xs.length / w) (Nat.le_refl _)
    rw [Nat.sub_self, Nat.zero_mul, List.drop_zero] at h1
    have hl : (fullPairs w xs ys).length < fuel := by
      simp only [fullPairs, List.length_zipWith, fullWindows_length]; omega
    simp only [ok_bind, simdIter, zsimdDoEach, zdoEachLoop_runs f h1 fuel st hl, bind_assoc,
      lengths_end c xs ys dx dy 0 hw hm hu hy]
    congr 1
    funext p
    by_cases ha : xs.length % w = 0
    · simp [ha]
    · simp only [ha, if_false, bind_assoc, ok_bind]
  · rw [if_neg hm, if_pos hm]; rfl

/-- The elements which a pass combines with the last `n % w` elements of a slice
of `n` elements. -/
def tailElems {β : Type} {w : Nat} (c : Cfg) (n : Nat) (ys : List β) (dy : Vector β w) :
    Res (List β) :=
  if ys.length = n then ok (ys.drop (n / w * w))
  else if c.debug then panic
  else if w < ys.length then ok (ys.drop (ys.length - n % w))
  else if ys.length < n then ok (ys.drop (n / w * w) ++ dy.toList.drop (w - (n - ys.length)))
  else ub

theorem tailElems_eq (c : Cfg) (n : Nat) (ys : List β) (dy : Vector β w) (hw : 0 < w)
    (hm : n / w = ys.length / w) :
    (secondTail c n ys dy >>= fun v => ok (v.toList.drop (w - n % w))) = tailElems c n ys dy := by
  have h1 := Nat.div_add_mod n w
  have h2 := Nat.div_add_mod ys.length w
  have h3 := Nat.mod_lt n hw
  have h4 := Nat.mod_lt ys.length hw
  rw [Nat.mul_comm] at h1 h2
  rw [← hm] at h2
  have hl : leftover w ys = ys.drop (n / w * w) := by rw [leftover, ← hm]
  unfold secondTail tailElems
  rw [hl]
  generalize n / w * w = p at *
  by_cases e : ys.length = n
  · rw [if_pos e, if_pos e]
    simp only [ok_bind]
    congr 1
    apply List.ext_getElem
    · simp; omega
    · intro i hi hi'
      simp only [List.length_drop, Vector.length_toList] at hi hi'
      simp only [List.getElem_drop, Vector.getElem_toList]
      rw [padFront_getElem _ _ _ _ (by simp; omega), dif_neg (by simp; omega)]
      simp only [List.getElem_drop, List.length_drop]
      congr 1; omega
  · rw [if_neg e, if_neg e]
    cases c.debug
    · simp only [Bool.false_eq_true, if_false]
      by_cases h5 : w < ys.length
      · rw [if_pos h5, if_pos h5]
        simp only [ok_bind]
        congr 1
        apply List.ext_getElem
        · simp; omega
        · intro i hi hi'
          simp only [List.length_drop, Vector.length_toList] at hi hi'
          simp only [List.getElem_drop, Vector.getElem_toList]
          rw [padFront_getElem _ _ _ _ (by simp; omega), dif_neg (by simp; omega)]
          simp only [List.getElem_drop, List.length_drop]
          congr 1; omega
      · rw [if_neg h5, if_neg h5]
        by_cases h6 : ys.length < n
        · rw [if_pos h6, if_pos h6]
          simp only [ok_bind, placed_eq]
          congr 1
          apply List.ext_getElem
          · simp; omega
          · intro i hi hi'
            simp only [List.length_drop, Vector.length_toList] at hi
            simp only [List.getElem_drop, Vector.getElem_toList, Vector.getElem_ofFn,
              List.length_drop]
            by_cases h7 : i < ys.length - p
            · rw [dif_pos (by omega), List.getElem_append_left (by simpa using h7)]
              simp only [List.getElem_drop]
              congr 1; omega
            · rw [dif_neg (by omega), List.getElem_append_right (by simp; omega)]
              simp only [List.getElem_drop, Vector.getElem_toList, Fin.getElem_fin,
                List.length_drop]
              congr 1; omega
        · rw [if_neg h6, if_neg h6]; rfl
    · rfl

theorem lanes_zipWith {α β γ : Type} {w : Nat} (g : α → β → γ) :
    ∀ (us : List (Vector α w)) (vs : List (Vector β w)),
      lanes (List.zipWith (fun u v => Vector.zipWith g u v) us vs) =
        List.zipWith g (lanes us) (lanes vs)
  | [], vs => by simp
  | u :: us, [] => by simp
  | u :: us, v :: vs => by
    rw [List.zipWith_cons_cons, lanes_cons, lanes_cons, lanes_cons,
      List.zipWith_append (by simp), lanes_zipWith g us vs, Vector.toList_zipWith]

theorem lanes_full_take {α : Type} {w : Nat} (hw : 0 < w) (l : List α) :
    lanes (fullWindows w l) = l.take (l.length / w * w) := by
  generalize hn : l.length / w * w = n
  have e := lanes_fullWindows hw l
  have hl : (lanes (fullWindows w l)).length = n := by rw [lanes_length, fullWindows_length, hn]
  conv => rhs; rw [← e]
  rw [List.take_append_of_le_length (by omega), List.take_of_length_le (by omega)]

/-- **C123**, `simd_map` of a lane-wise function and `scalar_collect`, any two
lengths: the result always has the length of the first slice. Its elements before
the last partial vector of the first slice are right, and the others are computed
with `tailElems`. -/
theorem C123_collect_exact {γ : Type} [Packable γ] (c : Cfg) (xs : List α) (ys : List β)
    (dx : Vector α w) (dy : Vector β w) (hw : 0 < w) (hu : xs.length + w < c.usize)
    (hy : ys.length + w < c.usize) (fuel : Nat) (g : α → β → γ) (hs : 0 < Packable.size γ)
    (hsize : Packable.size α = Packable.size γ) (hvec : w * Packable.size α < c.usize)
    (hfuel : xs.length / w < fuel) :
    (do
      let z ← zip c (simdIter xs dx) (simdIter ys dy, ())
      let (_, out) ← scalarCollect c fuel
        (zsimdMap z () (pureFn fun (v : Vector α w × Vector β w × Unit) =>
          Vector.zipWith g v.1 v.2.1))
      ok out) =
      if xs.length / w ≠ ys.length / w then panic
      else (do
        let n := xs.length / w * w
        let t ← if xs.length % w = 0 then ok [] else tailElems c xs.length ys dy
        ok ((List.zipWith g (xs.take n) (ys.take n) ++
          List.zipWith g (xs.drop n) t).map some)) := by
  rw [C22_zip_check c xs ys dx dy hw hw hu hy]
  by_cases hm : xs.length / w = ys.length / w
  · rw [if_pos hm, if_neg (by simpa using hm)]
    have h1 := lengths_runs c xs ys dx dy 0 hw hm hu (xs.length / w) (Nat.le_refl _)
    rw [Nat.sub_self, Nat.zero_mul, List.drop_zero] at h1
    have hl : (fullPairs w xs ys).length = xs.length / w := by
      simp only [fullPairs, List.length_zipWith, fullWindows_length]; omega
    have h2 := Nat.div_add_mod xs.length w
    have h3 := Nat.mod_lt xs.length hw
    rw [Nat.mul_comm] at h2
    have hle : (w - xs.length % w) * Packable.size α ≤ w * Packable.size α :=
      Nat.mul_le_mul_right _ (by omega)
    have hr := zipMap_runs (pureFn fun (v : Vector α w × Vector β w × Unit) =>
          Vector.zipWith g v.1 v.2.1) h1 ()
    rw [mapRun_pure] at hr
    simp only [ok_bind] at hr
    have hfull : lanes ((fullPairs w xs ys).map fun v => Vector.zipWith g v.1 v.2.1) =
        List.zipWith g (xs.take (xs.length / w * w)) (ys.take (xs.length / w * w)) := by
      rw [fullPairs, List.map_zipWith, lanes_zipWith]
      rw [lanes_full_take hw xs, lanes_full_take hw ys, hm]
    simp only [ok_bind, zsimdMap, simdIter]
    rw [scalarCollect_emits ⟨_, hr, rfl⟩ fuel (by simp [hl]; omega) hw (L := xs.length / w)
      (by exact (simdIter_driver (represents_slice c xs) dx hw hu).len 0) (by simp [hl])
      (by rw [Nat.succ_mul]; omega)]
    · rw [hfull]
      simp only [ok_bind, bind_assoc, SIMDIterator.end_, SIMDZipMap.end_,
        lengths_end c xs ys dx dy 0 hw hm hu hy]
      by_cases ha : xs.length % w = 0
      · simp only [ha, if_true, ok_bind]
        simp
      · simp only [ha, if_false, bind_assoc, ok_bind]
        rw [← tailElems_eq c xs.length ys dy hw hm]
        simp only [bind_assoc, ok_bind, SIMDZippedIterator.size]
        congr 1
        funext v
        rw [umul_ok (by omega)]
        simp only [ok_bind]
        rw [udiv_ok hs, hsize, Nat.mul_div_cancel _ hs]
        simp only [ok_bind, pureFn]
        congr 2
        simp only [Option.map_some, Option.getD_some, Vector.toList_zipWith, List.drop_zipWith]
        congr 2
        apply List.ext_getElem
        · simp; omega
        · intro i hi hi'
          have hlf := leftover_length w xs
          simp only [List.length_drop, Vector.length_toList] at hi
          simp only [List.getElem_drop, Vector.getElem_toList]
          rw [padFront_getElem _ _ _ _ (by omega), dif_neg (by omega)]
          simp only [leftover, List.getElem_drop, List.length_drop]
          congr 1; omega
    · intro p n it e
      simp only [ok_bind, SIMDIterator.end_, SIMDZipMap.end_,
        lengths_end c xs ys dx dy 0 hw hm hu hy] at e
      by_cases ha : xs.length % w = 0
      · simp [ha] at e
      · simp only [ha, if_false, bind_assoc, ok_bind, SIMDZippedIterator.size] at e
        rw [umul_ok (by omega)] at e
        simp only [ok_bind] at e
        rw [udiv_ok hs, hsize, Nat.mul_div_cancel _ hs] at e
        cases hst : secondTail c xs.length ys dy <;> simp [hst, pureFn] at e
        omega
    · intro it e
      simp only [ok_bind, SIMDIterator.end_, SIMDZipMap.end_,
        lengths_end c xs ys dx dy 0 hw hm hu hy] at e
      by_cases ha : xs.length % w = 0
      · simp only [ha, if_true, ok_bind, ok.injEq, Prod.mk.injEq, true_and] at e
        rw [← e, List.length_map, hl]
        exact (simdIter_driver (represents_slice c xs) dx hw hu).len _
      · simp only [ha, if_false, bind_assoc, ok_bind, SIMDZippedIterator.size] at e
        rw [umul_ok (by omega)] at e
        simp only [ok_bind] at e
        rw [udiv_ok hs] at e
        cases hst : secondTail c xs.length ys dy <;> simp [hst, pureFn] at e
  · rw [if_neg hm, if_pos hm]; rfl

/-- **C123**, the part which holds: if the lengths are equal, or the first slice
consists of full vectors and `zip` accepts the second one, the result is `zipWith`,
which stops at the end of the shorter list. Missing: a first slice with a partial
vector and a second one of another length (`C123_collect_exact`, `C123_false`). -/
theorem C123_collect_partial {γ : Type} [Packable γ] (c : Cfg) (xs : List α) (ys : List β)
    (dx : Vector α w) (dy : Vector β w) (hw : 0 < w) (hu : xs.length + w < c.usize)
    (hy : ys.length + w < c.usize) (fuel : Nat) (g : α → β → γ) (hs : 0 < Packable.size γ)
    (hsize : Packable.size α = Packable.size γ) (hvec : w * Packable.size α < c.usize)
    (hfuel : xs.length / w < fuel)
    (h : ys.length = xs.length ∨ xs.length % w = 0 ∧ ys.length / w = xs.length / w) :
    (do
      let z ← zip c (simdIter xs dx) (simdIter ys dy, ())
      let (_, out) ← scalarCollect c fuel
        (zsimdMap z () (pureFn fun (v : Vector α w × Vector β w × Unit) =>
          Vector.zipWith g v.1 v.2.1))
      ok out) = ok ((List.zipWith g xs ys).map some) := by
  have hm : xs.length / w = ys.length / w := by
    rcases h with h | h
    · rw [h]
    · exact h.2.symm
  rw [C123_collect_exact c xs ys dx dy hw hu hy fuel g hs hsize hvec hfuel,
    if_neg (by simpa using hm)]
  have h2 := Nat.div_add_mod xs.length w
  have h3 := Nat.div_add_mod ys.length w
  rw [← hm] at h3
  rw [Nat.mul_comm] at h2 h3
  by_cases ha : xs.length % w = 0
  · simp only [ha, if_true, ok_bind]
    rw [List.zipWith_nil_right, List.append_nil, List.take_of_length_le (by omega)]
    congr 2
    apply List.ext_getElem
    · simp; omega
    · intro i h1 h2; simp
  · have he : ys.length = xs.length := by
      rcases h with h | h
      · exact h
      · exact absurd h.1 ha
    simp only [ha, if_false, tailElems, he, if_true, ok_bind]
    rw [← List.zipWith_append (by simp; omega), List.take_append_drop, List.take_append_drop]

/-- **C123**, debug builds: for other lengths every pass panics, at the latest in
`end`, unless the first slice consists of full vectors. -/
theorem C123_debug {γ : Type} [Packable γ] (c : Cfg) (xs : List α) (ys : List β)
    (dx : Vector α w) (dy : Vector β w) (hw : 0 < w) (hu : xs.length + w < c.usize)
    (hy : ys.length + w < c.usize) (fuel : Nat) (g : α → β → γ) (hs : 0 < Packable.size γ)
    (hsize : Packable.size α = Packable.size γ) (hvec : w * Packable.size α < c.usize)
    (hfuel : xs.length / w < fuel) (hd : c.debug = true)
    (h : ¬ (ys.length = xs.length ∨ xs.length % w = 0 ∧ ys.length / w = xs.length / w)) :
    (do
      let z ← zip c (simdIter xs dx) (simdIter ys dy, ())
      let (_, out) ← scalarCollect c fuel
        (zsimdMap z () (pureFn fun (v : Vector α w × Vector β w × Unit) =>
          Vector.zipWith g v.1 v.2.1))
      ok out) = panic := by
  rw [C123_collect_exact c xs ys dx dy hw hu hy fuel g hs hsize hvec hfuel]
  by_cases hm : xs.length / w = ys.length / w
  · rw [if_neg (by simpa using hm)]
    have ha : xs.length % w ≠ 0 := fun e => h (Or.inr ⟨e, hm.symm⟩)
    have he : ys.length ≠ xs.length := fun e => h (Or.inl e)
    simp [ha, he, hd, tailElems]
  · rw [if_pos hm]

/-- **C123**, release builds: a second slice which is longer than the first one is
read out of step if it is longer than a vector, and has undefined behaviour if it
is not. -/
theorem C123_release_longer {γ : Type} [Packable γ] (c : Cfg) (xs : List α) (ys : List β)
    (dx : Vector α w) (dy : Vector β w) (hw : 0 < w) (hu : xs.length + w < c.usize)
    (hy : ys.length + w < c.usize) (fuel : Nat) (g : α → β → γ) (hs : 0 < Packable.size γ)
    (hsize : Packable.size α = Packable.size γ) (hvec : w * Packable.size α < c.usize)
    (hfuel : xs.length / w < fuel) (hd : c.debug = false) (hm : xs.length / w = ys.length / w)
    (ha : xs.length % w ≠ 0) (hlt : xs.length < ys.length) :
    (do
      let z ← zip c (simdIter xs dx) (simdIter ys dy, ())
      let (_, out) ← scalarCollect c fuel
        (zsimdMap z () (pureFn fun (v : Vector α w × Vector β w × Unit) =>
          Vector.zipWith g v.1 v.2.1))
      ok out) =
      if w < ys.length then
        ok ((List.zipWith g xs (ys.take (xs.length / w * w) ++
          ys.drop (xs.length / w * w + (ys.length - xs.length)))).map some)
      else ub := by
  rw [C123_collect_exact c xs ys dx dy hw hu hy fuel g hs hsize hvec hfuel,
    if_neg (by simpa using hm)]
  have h2 := Nat.div_add_mod xs.length w
  have h3 := Nat.div_add_mod ys.length w
  rw [← hm] at h3
  rw [Nat.mul_comm] at h2 h3
  simp only [ha, hd, if_false, Bool.false_eq_true, tailElems, show ys.length ≠ xs.length by omega,
    show ¬ ys.length < xs.length by omega]
  by_cases h5 : w < ys.length
  · simp only [h5, if_true, ok_bind]
    rw [← List.zipWith_append (by simp; omega), List.take_append_drop]
    congr 5
    omega
  · simp only [h5, if_false, ub_bind]

end Pass

/-- **C123 is false** in release builds: the fifth element is combined with the
sixth one of the other slice; or with the default, or with memory outside a vector. -/
theorem C123_false :
    let run : List (BitVec 8) → List (BitVec 8) → Res (List (Option (BitVec 8))) := fun xs ys => (do
      let z ← zip release64 (simdIter xs #v[0#8, 0, 0, 0]) (simdIter ys #v[9#8, 9, 9, 9], ())
      let (_, out) ← scalarCollect release64 9
        (zsimdMap z () (pureFn fun (v : Vector (BitVec 8) 4 × Vector (BitVec 8) 4 × Unit) =>
          Vector.zipWith (· + ·) v.1 v.2.1))
      ok out)
    run [1, 2, 3, 4, 5] [10, 20, 30, 40, 50, 60] = ok ([11, 22, 33, 44, 65].map some) ∧
    run [1, 2, 3, 4, 5, 6] [10, 20, 30, 40, 50] = ok ([11, 22, 33, 44, 45, 56].map some) ∧
    run [1, 2] [10] = ok ([11, 11].map some) ∧
    run [1] [10, 20] = ub := by
  refine ⟨?_, ?_, ?_, ?_⟩ <;> decide +kernel

/-- In debug builds these passes panic, but full vectors are truncated silently. -/
example :
    let run : List (BitVec 8) → List (BitVec 8) → Res (List (Option (BitVec 8))) := fun xs ys => (do
      let z ← zip debug64 (simdIter xs #v[0#8, 0, 0, 0]) (simdIter ys #v[9#8, 9, 9, 9], ())
      let (_, out) ← scalarCollect debug64 9
        (zsimdMap z () (pureFn fun (v : Vector (BitVec 8) 4 × Vector (BitVec 8) 4 × Unit) =>
          Vector.zipWith (· + ·) v.1 v.2.1))
      ok out)
    run [1, 2, 3, 4, 5] [10, 20, 30, 40, 50, 60] = panic ∧
    run [1, 2, 3, 4] [10, 20, 30, 40, 50, 60] = ok ([11, 22, 33, 44].map some) ∧
    run [1, 2, 3, 4, 5] [10, 20, 30, 40, 50] = ok ([11, 22, 33, 44, 55].map some) := by
  refine ⟨?_, ?_, ?_⟩ <;> decide +kernel

end Faster
