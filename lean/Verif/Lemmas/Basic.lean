import Verif.Spec
namespace Faster
open Res

/-! ### usize -/
theorem uadd_ok {c : Cfg} {a b : Nat} (h : a + b < c.usize) : uadd c a b = ok (a + b) := by
  simp [uadd, h]
theorem usub_ok {c : Cfg} {a b : Nat} (h : b ≤ a) : usub c a b = ok (a - b) := by
  simp [usub, h]
theorem umul_ok {c : Cfg} {a b : Nat} (h : a * b < c.usize) : umul c a b = ok (a * b) := by
  simp [umul, h]
theorem udiv_ok {a b : Nat} (h : 0 < b) : udiv a b = ok (a / b) := by
  simp [udiv, Nat.pos_iff_ne_zero.mp h]
@[simp] theorem assert_true : assert true = ok () := rfl
@[simp] theorem assert_false : assert false = panic := rfl
@[simp] theorem debugAssert_true (c : Cfg) : debugAssert c true = ok () := by
  cases h : c.debug <;> simp [debugAssert, h]
theorem debugAssert_ok {c : Cfg} {p : Prop} [Decidable p] (h : p) :
    debugAssert c (decide p) = ok () := by simp [h]

/-! ### Slices -/

theorem splice_length {α : Type} (d : List α) (o : Nat) (xs : List α) (h : o + xs.length ≤ d.length) :
    (splice d o xs).length = d.length := by
  simp [splice]; omega

theorem splice_getElem? {α : Type} (d : List α) (o : Nat) (xs : List α)
    (h : o + xs.length ≤ d.length) (i : Nat) :
    (splice d o xs)[i]? =
      if i < o then d[i]? else if i < o + xs.length then xs[i - o]? else d[i]? := by
  unfold splice
  have h1 : (List.take o d).length = o := by simp; omega
  rw [List.append_assoc, List.getElem?_append, h1]
  split
  · rw [List.getElem?_take]; simp [*]
  · rw [List.getElem?_append, List.getElem?_drop]
    split
    · rw [if_pos (by omega)]
    · rw [if_neg (by omega)]; congr 1; omega

theorem splice_nil {α : Type} (d : List α) (o : Nat) : splice d o [] = d := by
  simp [splice]

theorem splice_splice {α : Type} (d : List α) (o : Nat) (xs ys : List α)
    (h : o + xs.length + ys.length ≤ d.length) :
    splice (splice d o xs) (o + xs.length) ys = splice d o (xs ++ ys) := by
  apply List.ext_getElem?
  intro i
  have hl := splice_length d o xs (by omega)
  rw [splice_getElem? (splice d o xs) _ _ (by omega), splice_getElem? d o (xs ++ ys) (by simp; omega),
    splice_getElem? d o xs (by omega)]
  simp only [List.length_append, List.getElem?_append]
  grind

theorem splice_zero {α : Type} (d xs : List α) :
    splice d 0 xs = xs ++ d.drop xs.length := by
  simp [splice]

theorem sliceFrom_ok {α : Type} {d : List α} {o : Nat} (h : o ≤ d.length) :
    sliceFrom d o = ok (d.drop o) := by simp [sliceFrom, h]

theorem index_ok {α : Type} {d : List α} {i : Nat} (h : i < d.length) :
    index d i = ok d[i] := by simp [index, h]
theorem getUnchecked_ok {α : Type} {d : List α} {i : Nat} (h : i < d.length) :
    getUnchecked d i = ok d[i] := by simp [getUnchecked, h]
theorem indexSet_ok {α : Type} {d : List α} {i : Nat} {x : α} (h : i < d.length) :
    indexSet d i x = ok (d.set i x) := by simp [indexSet, h]
theorem setUnchecked_ok {α : Type} {d : List α} {i : Nat} {x : α} (h : i < d.length) :
    setUnchecked d i x = ok (d.set i x) := by simp [setUnchecked, h]

/-! ### Packed -/

/-- Lanes `o, …, o+w-1` of a list. -/
def windowAt {α : Type} (l : List α) (o w : Nat) (h : o + w ≤ l.length) : Vector α w :=
  Vector.ofFn fun j => l[o + j.val]

theorem windowAt_toList {α : Type} (l : List α) (o w : Nat) (h : o + w ≤ l.length) :
    (windowAt l o w h).toList = (l.drop o).take w := by
  apply List.ext_getElem
  · simp; omega
  · intro i h1 h2
    simp [windowAt]

theorem fromSliceUnchecked_ok {α : Type} {w : Nat} {s : List α} (h : w ≤ s.length) :
    (Packed.fromSliceUnchecked s : Res (Vector α w)) = ok (windowAt s 0 w (by omega)) := by
  simp only [Packed.fromSliceUnchecked, h, dif_pos]
  congr 1
  ext i hi
  simp [windowAt]

theorem load_ok {α : Type} {w : Nat} {l : List α} {o : Nat} (h : o + w ≤ l.length) :
    (Packed.load l o : Res (Vector α w)) = ok (windowAt l o w h) := by
  have h2 : w ≤ (l.drop o).length := by simp; omega
  have h3 : w ≤ l.length - o := by omega
  rw [Packed.load, sliceFrom_ok (by omega)]
  simp only [ok_bind, Packed.fromSlice]
  rw [fromSliceUnchecked_ok h2]
  simp [h3]
  ext i hi
  simp [windowAt]

theorem loadUnchecked_ok {α : Type} {w : Nat} {c : Cfg} {l : List α} {o : Nat}
    (h : o + w ≤ l.length) :
    (Packed.loadUnchecked c l o : Res (Vector α w)) = ok (windowAt l o w h) := by
  have h2 : w ≤ (l.drop o).length := by simp; omega
  have h3 : w ≤ l.length - o := by omega
  simp only [Packed.loadUnchecked]
  rw [sliceFrom_ok (by omega)]
  simp only [ok_bind]
  rw [fromSliceUnchecked_ok h2]
  have e : windowAt (List.drop o l) 0 w (by omega) = windowAt l o w h := by
    ext i hi; simp [windowAt]
  cases hd : c.debug <;> simp [h3, e]

theorem storeUnchecked_ok {α : Type} {w : Nat} {c : Cfg} {v : Vector α w} {l : List α} {o : Nat}
    (h : o + w ≤ l.length) :
    Packed.storeUnchecked c v l o = ok (splice l o v.toList) := by
  have h3 : w ≤ l.length - o := by omega
  simp only [Packed.storeUnchecked]
  rw [sliceFrom_ok (by omega)]
  cases hd : c.debug <;> simp [h3]

theorem store_ok {α : Type} {w : Nat} {v : Vector α w} {l : List α} {o : Nat}
    (h : o + w ≤ l.length) :
    Packed.store v l o = ok (splice l o v.toList) := by
  have h3 : w ≤ l.length - o := by omega
  simp only [Packed.store]
  rw [sliceFrom_ok (by omega)]
  simp [h3]

theorem extractUnchecked_ok {α : Type} {w : Nat} {c : Cfg} {v : Vector α w} {i : Nat} (h : i < w) :
    Packed.extractUnchecked c v i = ok v[i] := by
  simp [Packed.extractUnchecked, h]

theorem replaceUnchecked_ok {α : Type} {w : Nat} {c : Cfg} {v : Vector α w} {i : Nat} {x : α}
    (h : i < w) :
    Packed.replaceUnchecked c v i x = ok (v.set i x) := by
  simp [Packed.replaceUnchecked, h]

theorem replaceUnchecked_bad {α : Type} {w : Nat} {c : Cfg} {v : Vector α w} {i : Nat} {x : α}
    (h : ¬ i < w) :
    Packed.replaceUnchecked c v i x = if c.debug then panic else ub := by
  cases hd : c.debug <;> simp [Packed.replaceUnchecked, h, debugAssert, hd]

theorem mergeLoop_ok {α : Type} {w : Nat} (c : Cfg) (other : Vector α w) :
    ∀ (n i : Nat) (ret : Vector α w) (_ : i + n = w),
    Packed.mergeLoop c other n i ret =
      ok (Vector.ofFn fun j => if j.val < i then ret[j] else other[j]) := by
  intro n
  induction n with
  | zero =>
    intro i ret h
    simp only [Packed.mergeLoop]
    congr 1
    ext j hj
    simp [show j < i by omega]
  | succ n ih =>
    intro i ret h
    simp only [Packed.mergeLoop]
    rw [extractUnchecked_ok (by omega)]
    simp only [ok_bind]
    rw [replaceUnchecked_ok (by omega)]
    simp only [ok_bind]
    rw [ih (i+1) _ (by omega)]
    congr 1
    ext j hj
    simp only [Vector.getElem_ofFn, Fin.getElem_fin, Vector.getElem_set]
    grind

theorem mergePartitioned_ok {α : Type} {w : Nat} (c : Cfg) (a b : Vector α w) (n : Nat)
    (h : n < w) :
    Packed.mergePartitioned c a b n =
      ok (Vector.ofFn fun j => if j.val < n then a[j] else b[j]) := by
  simp only [Packed.mergePartitioned, h, decide_true, assert_true, ok_bind]
  exact mergeLoop_ok c b (w - n) n a (by omega)

/-! ### Windows -/

theorem leftover_length {α : Type} (w : Nat) (l : List α) :
    (leftover w l).length = l.length % w := by
  have := Nat.div_add_mod l.length w
  rw [Nat.mul_comm] at this
  simp [leftover]; omega

theorem fullWindows_length {α : Type} (w : Nat) (l : List α) :
    (fullWindows w l).length = l.length / w := by simp [fullWindows]

theorem fullWindows_short {α : Type} {w : Nat} {l : List α} (h : l.length < w) :
    fullWindows w l = [] := by
  apply List.eq_nil_of_length_eq_zero
  rw [fullWindows_length]
  exact Nat.div_eq_of_lt h

theorem fullWindows_cons {α : Type} {w : Nat} {l : List α} (hw : 0 < w) (h : w ≤ l.length) :
    fullWindows w l = windowAt l 0 w (by omega) :: fullWindows w (l.drop w) := by
  have e : l.length / w = (l.length - w) / w + 1 := by
    rw [Nat.div_eq_sub_div hw h]
  apply List.ext_getElem
  · simp [fullWindows_length, e]
  · intro i h1 h2
    cases i with
    | zero => simp [fullWindows, windowAt]
    | succ i =>
      simp only [fullWindows, List.getElem_ofFn, List.getElem_cons_succ]
      ext j hj
      simp only [Vector.getElem_ofFn, List.getElem_drop]
      congr 1
      rw [Nat.succ_mul]; omega

theorem lanes_length {α : Type} {w : Nat} (vs : List (Vector α w)) :
    (lanes vs).length = vs.length * w := by
  induction vs with
  | nil => simp [lanes]
  | cons v vs ih => simp only [lanes] at ih; simp [lanes, ih, Nat.succ_mul]; omega

@[simp] theorem lanes_nil {α : Type} {w : Nat} : lanes ([] : List (Vector α w)) = [] := rfl
@[simp] theorem lanes_cons {α : Type} {w : Nat} (v : Vector α w) (vs : List (Vector α w)) :
    lanes (v :: vs) = v.toList ++ lanes vs := rfl
@[simp] theorem lanes_append {α : Type} {w : Nat} (vs us : List (Vector α w)) :
    lanes (vs ++ us) = lanes vs ++ lanes us := by simp [lanes]

theorem leftover_drop {α : Type} {w : Nat} {l : List α} (hw : 0 < w) (h : w ≤ l.length) :
    leftover w (l.drop w) = leftover w l := by
  simp only [leftover, List.length_drop, List.drop_drop]
  congr 1
  rw [Nat.div_eq_sub_div hw h, Nat.succ_mul]; omega

/-- The full groups and the leftover are the list. -/
theorem lanes_fullWindows {α : Type} {w : Nat} (hw : 0 < w) (l : List α) :
    lanes (fullWindows w l) ++ leftover w l = l := by
  induction h : l.length using Nat.strongRecOn generalizing l with
  | _ n ih =>
    by_cases hl : w ≤ l.length
    · rw [fullWindows_cons hw hl, lanes_cons, List.append_assoc, ← leftover_drop hw hl,
        ih (l.drop w).length (by simp; omega) _ rfl, windowAt_toList]
      simp
    · rw [fullWindows_short (by omega)]
      simp [leftover, Nat.div_eq_of_lt (Nat.lt_of_not_le hl)]

theorem padFront_getElem {α : Type} {w : Nat} (d : Vector α w) (r : List α) (j : Nat) (hj : j < w)
    (h : r.length ≤ w) :
    (padFront d r)[j] = if h2 : j < w - r.length then d[j] else r[j - (w - r.length)] := by
  simp only [padFront, Vector.getElem_ofFn]
  split
  · rw [Option.filter_eq_none_iff.mpr] <;> simp <;> omega
  · have h3 : w - r.length ≤ j := by omega
    rw [List.getElem?_eq_getElem (by omega)]
    simp [Option.filter, h3]

theorem padFront_drop {α : Type} {w : Nat} (d : Vector α w) (r : List α) (h : r.length ≤ w) :
    (padFront d r).toList.drop (w - r.length) = r := by
  apply List.ext_getElem
  · simp; omega
  · intro i h1 h2
    simp only [List.getElem_drop, Vector.getElem_toList]
    rw [padFront_getElem _ _ _ _ h, dif_neg (by omega)]
    congr 1; omega

end Faster
