import Verif.Lemmas.Stride
import Verif.Props.Position
/-
C25, C26, C27 and the strided parts of C16, C33, C34.

`strided s k l` is the list of the elements with indices `k, k+s, k+2s, …`, one
from each complete group of `s`. `hu`: one stride more than a vector past the
collection is still a `usize`.
-/
namespace Faster
open Res SIMDSized SIMDIterable SIMDIterator

section
variable {α : Type} [Packable α] {w : Nat}

/-! ### C25 -/

omit [Packable α] in
/-- **C25.** The iterators returned by the stride functions: number `k` starts at
element `k` with the `k`-th default. -/
theorem C25_stride_into (l : List α) (s : Nat) (ds : List (Vector α w)) (hs : ds.length = s) :
    ∃ its, strideInto (⟨l⟩ : Slice α w) s ds = ok its ∧ its.length = s ∧
      ∀ (k : Nat) (h : k < s) (h' : k < its.length), its[k] = strideAt ⟨l⟩ s k ds[k] := by
  have key : ∀ (n o : Nat), o + n = s →
      ∃ its, ((List.range' o n).mapM fun offset => do
        ok (strideAt (⟨l⟩ : Slice α w) s offset (← getUnchecked ds offset))) = ok its ∧
        its.length = n ∧ ∀ (k : Nat) (h : o + k < s) (h' : k < its.length),
          its[k] = strideAt ⟨l⟩ s (o + k) ds[o + k] := by
    intro n
    induction n with
    | zero => intro o ho; exact ⟨[], rfl, rfl, fun k _ h' => absurd h' (by simp)⟩
    | succ n ih =>
      intro o ho
      obtain ⟨its, h1, h2, h3⟩ := ih (o + 1) (by omega)
      refine ⟨strideAt ⟨l⟩ s o ds[o] :: its, ?_, by simp [h2], ?_⟩
      · rw [List.range'_succ, List.mapM_cons]
        rw [show getUnchecked ds o = ok (ds[o]'(by omega)) by
          simp [getUnchecked, List.getElem?_eq_getElem (show o < ds.length by omega)]]
        simp only [ok_bind]
        rw [h1]
        rfl
      · intro k hk hk'
        cases k with
        | zero => simp
        | succ k =>
          have := h3 k (by omega) (by simpa using hk')
          simp only [List.getElem_cons_succ]
          rw [this]
          congr 1
          · omega
          · congr 1; omega
  obtain ⟨its, h1, h2, h3⟩ := key s 0 (by omega)
  refine ⟨its, ?_, h2, ?_⟩
  · simp only [strideInto, hs, decide_true, assert, if_true, ok_bind, List.range_eq_range']
    exact h1
  · intro k h h'
    have := h3 k (by omega) h'
    rw [this]
    congr 1
    · omega
    · congr 1; omega

omit [Packable α] in
/-- **C25.** `stride`/`stride_into` with the wrong number of defaults panics. -/
theorem C25_stride_into_panics (l : List α) (s : Nat) (ds : List (Vector α w))
    (hs : ds.length ≠ s) : strideInto (⟨l⟩ : Slice α w) s ds = panic := by
  simp [strideInto, assert, hs]

omit [Packable α] in
/-- **C25.** The fixed-arity versions return the same iterators. -/
theorem C25_stride_tuples (l : List α) (d0 d1 d2 d3 d4 d5 d6 d7 d8 : Vector α w) :
    let a : Slice α w := ⟨l⟩
    strideTwo a (d0, d1) = (strideAt a 2 0 d0, strideAt a 2 1 d1) ∧
    strideThree a (d0, d1, d2) = (strideAt a 3 0 d0, strideAt a 3 1 d1, strideAt a 3 2 d2) ∧
    strideFour a (d0, d1, d2, d3) =
      (strideAt a 4 0 d0, strideAt a 4 1 d1, strideAt a 4 2 d2, strideAt a 4 3 d3) ∧
    strideNine a (d0, d1, d2, d3, d4, d5, d6, d7, d8) =
      (strideAt a 9 0 d0, strideAt a 9 1 d1, strideAt a 9 2 d2, strideAt a 9 3 d3,
        strideAt a 9 4 d4, strideAt a 9 5 d5, strideAt a 9 6 d6, strideAt a 9 7 d7,
        strideAt a 9 8 d8) :=
  ⟨rfl, rfl, rfl, rfl⟩

theorem strideAt_driver (c : Cfg) (l : List α) {s k : Nat} (hk : k < s) (d : Vector α w)
    (hw : 0 < w) (hu : l.length + s * (w + 1) < c.usize) :
    ∃ S more, Driver c S (strided s k l hk) d more ∧ S 0 = strideAt (⟨l⟩ : Slice α w) s k d ∧
      ∀ p, S p = ⟨⟨l⟩, k + s * p, k, s, d⟩ :=
  ⟨_, _, stride_driver (represents_slice c l) hk d hw hu, rfl, fun _ => rfl⟩

/-- **C25.** A pass with `simd_do_each` over strided iterator `k` calls the
closure on the groups of `w` of the elements `k, k+s, k+2s, …` in order, then on
the rest right-aligned after the default's lanes. -/
theorem C25_stride_calls {σ : Type} (c : Cfg) (fuel : Nat) (l : List α) {s k : Nat}
    (hk : k < s) (d : Vector α w) (st : σ) (f : FnMut σ (Vector α w) Unit)
    (hw : 0 < w) (hu : l.length + s * (w + 1) < c.usize) (hfuel : l.length / s / w < fuel) :
    simdDoEach c fuel (strideAt (⟨l⟩ : Slice α w) s k d) st f = (do
      let (_, st') ← callAll f st (calls w d (strided s k l hk))
      ok (⟨⟨l⟩, k + s * (l.length / s), k, s, d⟩, st')) := by
  obtain ⟨S, more, hd, h0, hS⟩ := strideAt_driver c l hk d hw hu
  rw [← h0, hd.do_each fuel st f hw (by simpa using hfuel), hS, strided_length]

/-- **C25**, `simd_reduce`. -/
theorem C25_stride_reduce {A σ : Type} (c : Cfg) (fuel : Nat) (l : List α) {s k : Nat}
    (hk : k < s) (d : Vector α w) (start : A) (st : σ) (f : σ → A → Vector α w → Res (A × σ))
    (hw : 0 < w) (hu : l.length + s * (w + 1) < c.usize) (hfuel : l.length / s / w < fuel) :
    simdReduce c fuel (strideAt (⟨l⟩ : Slice α w) s k d) start st f = (do
      let (acc, st') ← (calls w d (strided s k l hk)).foldlM (fun (acc, st) v => f st acc v)
        (start, st)
      ok (⟨⟨l⟩, k + s * (l.length / s), k, s, d⟩, acc, st')) := by
  obtain ⟨S, more, hd, h0, hS⟩ := strideAt_driver c l hk d hw hu
  rw [← h0, hd.reduce fuel start st f hw (by simpa using hfuel), hS, strided_length]

/-- **C25**, `simd_map` and `scalar_collect` with any closure. -/
theorem C25_stride_collect_any {β σ : Type} [Packable β] {w' : Nat} (c : Cfg) (fuel : Nat)
    (l : List α) {s k : Nat} (hk : k < s) (d : Vector α w) (st : σ)
    (f : FnMut σ (Vector α w) (Vector β w'))
    (hw : 0 < w) (hw' : 0 < w') (hs : 0 < Packable.size β)
    (hsize : w * Packable.size α = w' * Packable.size β)
    (hu : l.length + s * (w + 1) < c.usize) (hu' : (l.length / s / w + 1) * w' < c.usize)
    (hvec : w * Packable.size α < c.usize) (hfuel : l.length / s / w < fuel) :
    scalarCollect c fuel (simdMap (strideAt (⟨l⟩ : Slice α w) s k d) st f) = (do
      let (outs, st') ← callAll f st (calls w d (strided s k l hk))
      ok (⟨⟨⟨l⟩, k + s * (l.length / s), k, s, d⟩, st', f⟩,
        (unpad ((w - l.length / s % w) % w * Packable.size α / Packable.size β) outs).map some)) := by
  obtain ⟨S, more, hd, h0, hS⟩ := strideAt_driver c l hk d hw hu
  rw [← h0, hd.collect_map fuel st f hw hw' hs hsize (by simpa using hu') hvec
    (by simpa using hfuel), hS, strided_length]

/-- **C25**, lane-wise map: the scalar map over the elements `k, k+s, k+2s, …`. -/
theorem C25_stride_collect {β : Type} [Packable β] (c : Cfg) (fuel : Nat)
    (l : List α) {s k : Nat} (hk : k < s) (d : Vector α w) (g : α → β)
    (hw : 0 < w) (hs : 0 < Packable.size β) (hsize : Packable.size α = Packable.size β)
    (hu : l.length + s * (w + 1) < c.usize)
    (hvec : w * Packable.size α < c.usize) (hfuel : l.length / s / w < fuel) :
    scalarCollect c fuel (simdMap (strideAt (⟨l⟩ : Slice α w) s k d) () (pureFn (Vector.map g))) =
      ok (⟨⟨⟨l⟩, k + s * (l.length / s), k, s, d⟩, (), pureFn (Vector.map g)⟩,
        ((strided s k l hk).map g).map some) := by
  have h1 := Nat.div_mul_le_self (l.length / s) w
  have h2 := Nat.div_le_self l.length s
  have h3 : w + 1 ≤ s * (w + 1) := Nat.le_mul_of_pos_left _ (by omega)
  rw [C25_stride_collect_any c fuel l hk d () _ hw hw hs (by rw [hsize]) hu
    (by rw [Nat.succ_mul]; omega) hvec hfuel, callAll_pure]
  simp only [ok_bind]
  have e : (strided s k l hk).length = l.length / s := strided_length ..
  rw [← hsize, Nat.mul_div_cancel _ (by omega), unpad_map, ← e, unpad_calls hw]

/-- The second of three iterators over ten elements, two lanes. -/
example : (do
    let its ← strideInto (⟨[10#16, 11, 12, 13, 14, 15, 16, 17, 18, 19]⟩ : Slice _ 2) 3
      [#v[0#16, 0], #v[0, 0], #v[0, 0]]
    let it ← index its 1
    let (_, out) ← scalarCollect debug64 3 (simdMap it () (pureFn (Vector.map (· + 100))))
    ok out) = ok ([111#16, 114, 117].map some) := by decide +kernel

example : strided 3 1 [10, 11, 12, 13, 14, 15, 16, 17, 18, 19] (by decide) = [11, 14, 17] := by
  decide

/-! ### C26 -/

omit [Packable α] in
/-- **C26**, exactly what is delivered: element number `i` of the collection is
delivered by iterator `i % s` iff it belongs to a complete group, that is iff
`i < s * (len / s)`. The last `len % s` elements are lost. -/
theorem C26_stride_delivered (l : List α) (s i : Nat) (hs : 0 < s) :
    (strided s (i % s) l (Nat.mod_lt i hs))[i / s]? =
      if i < s * (l.length / s) then l[i]? else none := by
  have e := Nat.div_add_mod i s
  have hm := Nat.mod_lt i hs
  have hiff : i / s < l.length / s ↔ i < s * (l.length / s) := by
    rw [Nat.div_lt_iff_lt_mul hs, Nat.mul_comm]
  have hle := Nat.mul_div_le l.length s
  by_cases h : i < s * (l.length / s)
  · rw [if_pos h, List.getElem?_eq_getElem (by rw [strided_length]; exact hiff.mpr h),
      List.getElem?_eq_getElem (by omega), strided_getElem]
    congr 2; omega
  · rw [if_neg h, List.getElem?_eq_none (by rw [strided_length]; omega)]

/-- **C26 is false**: of five elements with stride two, the last one is not
delivered by either iterator. -/
theorem C26_false :
    (do
      let (_, a) ← scalarCollect release64 9
        (simdMap (strideTwo (⟨[1#8, 2, 3, 4, 5]⟩ : Slice _ 2) (#v[0#8, 0], #v[0, 0])).1 () (pureFn id))
      let (_, b) ← scalarCollect release64 9
        (simdMap (strideTwo (⟨[1#8, 2, 3, 4, 5]⟩ : Slice _ 2) (#v[0#8, 0], #v[0, 0])).2 () (pureFn id))
      ok (a, b)) = ok ([1#8, 3].map some, [2#8, 4].map some) := by decide +kernel

omit [Packable α] in
/-- **C26**, the part which holds: if the stride divides the length, iterator `k`
delivers all elements whose index is congruent to `k`, and every element is
delivered. Missing: other lengths (`C26_stride_delivered`). -/
theorem C26_stride_complete_partial (l : List α) (s : Nat) (hs : 0 < s) (hd : l.length % s = 0) :
    (∀ i, i < l.length →
      (strided s (i % s) l (Nat.mod_lt i hs))[i / s]? = l[i]?) ∧
    (∀ k (hk : k < s), (strided s k l hk).length * s = l.length) := by
  have e := Nat.div_add_mod l.length s
  constructor
  · intro i hi
    rw [C26_stride_delivered _ _ _ hs, if_pos (by omega)]
  · intro k hk
    rw [strided_length, Nat.mul_comm]; omega

/-! ### C27 -/

/-- **C27.** `next` of a strided iterator never has undefined behaviour, at any
position `k + s*p` (also after `advance`). -/
theorem C27_stride_next_safe (c : Cfg) (l : List α) {s k : Nat} (hk : k < s) (d : Vector α w)
    (p : Nat) (hw : 0 < w) (hu : l.length + s * (w + 1) < c.usize) (hp : p ≤ l.length / s) :
    ∃ r, next c (⟨⟨l⟩, k + s * p, k, s, d⟩ : PackedStride (Slice α w) α w) = ok r := by
  have hd := stride_driver (represents_slice c l) hk d hw hu
  by_cases hm : k + s * (p + w) < l.length
  · obtain ⟨_, h⟩ := hd.next_some p hm
    exact ⟨_, h⟩
  · exact ⟨_, hd.next_none p (by simpa using hp) hm⟩

/-- **C27.** After a number of vectors, when `next` returned `None`, `end` is
safe and delivers the remaining elements. -/
theorem C27_stride_end_safe (c : Cfg) (l : List α) {s k : Nat} (hk : k < s) (d : Vector α w)
    (n : Nat) (hw : 0 < w) (hu : l.length + s * (w + 1) < c.usize)
    (hn : n * w ≤ l.length / s)
    (hnone : next c (⟨⟨l⟩, k + s * (n * w), k, s, d⟩ : PackedStride (Slice α w) α w) =
      ok (none, ⟨⟨l⟩, k + s * (n * w), k, s, d⟩)) :
    end_ c (⟨⟨l⟩, k + s * (n * w), k, s, d⟩ : PackedStride (Slice α w) α w) =
      if n * w < l.length / s
      then ok (some (padFront d ((strided s k l hk).drop (n * w)), w - (l.length / s - n * w)),
        ⟨⟨l⟩, k + s * (l.length / s), k, s, d⟩)
      else ok (none, ⟨⟨l⟩, k + s * (n * w), k, s, d⟩) := by
  have hd := stride_driver (represents_slice c l) hk d hw hu
  have hm : ¬ k + s * (n * w + w) < l.length := by
    intro hm
    obtain ⟨_, h⟩ := hd.next_some (n * w) hm
    rw [h] at hnone
    simp at hnone
  have := hd.end_ (n * w) (by simpa using hn) hm (by
    rw [strided_length]
    intro hlt
    by_cases h0 : n = 0
    · left; rw [h0, Nat.zero_mul]
    · right
      have := Nat.le_mul_of_pos_left w (Nat.pos_of_ne_zero h0)
      omega)
  simp only [strided_length] at this
  exact this

/-- **C27**, `load(i)`: where the last index does not overflow `usize`, and in
debug builds everywhere, `load(i)` panics exactly when the index of its last
element is outside the collection; otherwise it returns the elements `k + s*(i+j)`.
Missing: release builds with an index which overflows (`C27_load_release`). -/
theorem C27_stride_load_partial (c : Cfg) (l : List α) {s k : Nat} (p : Nat) (d : Vector α w)
    (i : Nat) (hs : 0 < s) (hw : 0 < w) (hl : l.length < c.usize)
    (hu : c.debug = true ∨ k + s * (i + (w - 1)) < c.usize) :
    (∀ h : k + s * (i + (w - 1)) < l.length,
      SIMDArray.load c (⟨⟨l⟩, p, k, s, d⟩ : PackedStride (Slice α w) α w) i =
        ok (Vector.ofFn fun j => l[k + s * (i + j.val)]'(by
          have := j.isLt
          have : s * (i + j.val) ≤ s * (i + (w - 1)) := Nat.mul_le_mul_left s (by omega)
          omega))) ∧
    (l.length ≤ k + s * (i + (w - 1)) →
      SIMDArray.load c (⟨⟨l⟩, p, k, s, d⟩ : PackedStride (Slice α w) α w) i = panic) := by
  have h2 : i + (w - 1) ≤ s * (i + (w - 1)) := Nat.le_mul_of_pos_left _ hs
  have h3 : s * (w - 1) ≤ s * (i + (w - 1)) := Nat.mul_le_mul_left s (by omega)
  have hi : i ≤ s * i := Nat.le_mul_of_pos_left _ hs
  have e : s * (i + (w - 1)) = s * i + s * (w - 1) := Nat.mul_add ..
  have hw1 : w - 1 ≤ s * (w - 1) := Nat.le_mul_of_pos_left _ hs
  by_cases hov : k + s * (i + (w - 1)) < c.usize
  · have hload : SIMDArray.load c (⟨⟨l⟩, p, k, s, d⟩ : PackedStride (Slice α w) α w) i =
        (assert (decide (k + s * (i + (w - 1)) < l.length)) >>= fun _ =>
          PackedStride.loadUnchecked c (⟨⟨l⟩, p, k, s, d⟩ : PackedStride (Slice α w) α w) i) := by
      simp only [SIMDArray.load, PackedStride.load]
      rw [usub_ok (by omega)]
      simp only [ok_bind]
      rw [uadd_ok (by omega)]
      simp only [ok_bind]
      rw [umul_ok (by omega)]
      simp only [ok_bind]
      rw [uadd_ok (by omega)]
      simp only [ok_bind, SIMDSized.scalarLen]
    constructor
    · intro h
      rw [hload]
      simp only [h, decide_true, assert, if_true, ok_bind, PackedStride.loadUnchecked]
      have hidx : ∀ j, j < w → k + s * (i + j) < l.length := by
        intro j hj
        have : s * (i + j) ≤ s * (i + (w - 1)) := Nat.mul_le_mul_left s (by omega)
        omega
      rw [strideLoop_ok (represents_slice c l) _ (fun j => k + s * (i + j)) _ hidx w 0 _ (by omega)]
      · have hres : (Vector.ofFn fun (j : Fin w) => if j.val < 0 then
            (Packed.default : Vector α w)[j] else l[k + s * (i + j.val)]'(hidx _ j.isLt)) =
            Vector.ofFn fun j => l[k + s * (i + j.val)]'(hidx _ j.isLt) := by
          ext j hj; simp
        rw [hres]
        cases c.debug
        · simp
        · simp only [if_true]
          rw [usub_ok (by omega)]
          simp only [ok_bind]
          rw [umul_ok (by omega)]
          simp only [ok_bind]
          rw [uadd_ok (by omega)]
          simp only [ok_bind, SIMDSized.scalarLen]
          rw [show decide (i + s * (w - 1) < l.length) = true by simp; omega]
          simp
      · intro j hj
        have := hidx j hj
        have h3 : i + j ≤ s * (i + j) := Nat.le_mul_of_pos_left _ hs
        rw [uadd_ok (by omega)]
        simp only [ok_bind]
        rw [umul_ok (by omega)]
        simp only [ok_bind]
        rw [uadd_ok (by omega)]
    · intro h
      rw [hload, show decide (k + s * (i + (w - 1)) < l.length) = false by simp; omega]
      rfl
  · have hd : c.debug = true := hu.resolve_right hov
    refine ⟨fun h => absurd h (by omega), fun _ => ?_⟩
    simp only [SIMDArray.load, PackedStride.load]
    unfold usub
    rw [if_pos (by omega)]
    simp only [ok_bind, uadd, umul, hd, if_true]
    split
    · simp only [ok_bind]
      split
      · simp only [ok_bind]
        rw [if_neg hov]
        rfl
      · rfl
    · rfl

theorem uadd_release {c : Cfg} (hd : c.debug = false) (a b : Nat) :
    uadd c a b = ok ((a + b) % c.usize) := by
  unfold uadd
  split
  · rw [Nat.mod_eq_of_lt (by assumption)]
  · simp [hd]

theorem umul_release {c : Cfg} (hd : c.debug = false) (a b : Nat) :
    umul c a b = ok ((a * b) % c.usize) := by
  unfold umul
  split
  · rw [Nat.mod_eq_of_lt (by assumption)]
  · simp [hd]

theorem wrap_index (k s o n : Nat) : (k + s * (o % n) % n) % n = (k + s * o) % n := by
  rw [Nat.add_mod, Nat.mod_mod, Nat.mul_mod, Nat.mod_mod, ← Nat.mul_mod, ← Nat.add_mod]

omit [Packable α] in
/-- A release build reads outside the collection as soon as one index is. -/
theorem strideLoop_bad {c : Cfg} (hd : c.debug = false) (l : List α) (idx : Nat → Res Nat)
    (ix : Nat → Nat) (hidx : ∀ i, i < w → idx i = ok (ix i)) :
    ∀ (n i : Nat) (ret : Vector α w), i + n = w → (∃ j, i ≤ j ∧ j < w ∧ l.length ≤ ix j) →
      strideLoop c (⟨l⟩ : Slice α w) idx n i ret = ub := by
  intro n
  induction n with
  | zero => rintro i ret hi ⟨j, h1, h2, -⟩; omega
  | succ n ih =>
    rintro i ret hi ⟨j, h1, h2, h3⟩
    simp only [strideLoop, hidx i (by omega), ok_bind, SIMDArray.loadScalarUnchecked, debugAssert, hd]
    by_cases h : ix i < l.length
    · rw [getUnchecked_ok h]
      simp only [Bool.false_eq_true, if_false, ok_bind, replace_ok (show i < w by omega)]
      refine ih (i + 1) _ (by omega) ⟨j, ?_, h2, h3⟩
      by_cases hij : i = j
      · subst hij; omega
      · omega
    · simp only [Bool.false_eq_true, if_false, ok_bind, getUnchecked,
        List.getElem?_eq_none (Nat.le_of_not_lt h)]
      rfl

/-- **C27 is false in release builds**: `load(i)` for every `i`. The check and
the loads compute their indices modulo 2^64; if the index of the last lane wraps
around to an index inside the collection, the check passes, and the loads of
the lanes before it read outside. -/
theorem C27_load_release (c : Cfg) (l : List α) {s k : Nat} (p : Nat) (d : Vector α w)
    (i : Nat) (hw : 0 < w) (hd : c.debug = false) :
    SIMDArray.load c (⟨⟨l⟩, p, k, s, d⟩ : PackedStride (Slice α w) α w) i =
      if l.length ≤ (k + s * (i + (w - 1))) % c.usize then panic
      else if h : ∀ j, j < w → (k + s * (i + j)) % c.usize < l.length then
        ok (Vector.ofFn fun j => l[(k + s * (i + j.val)) % c.usize]'(h _ j.isLt))
      else ub := by
  simp only [SIMDArray.load, PackedStride.load]
  rw [usub_ok hw]
  simp only [ok_bind, uadd_release hd, umul_release hd, wrap_index, SIMDSized.scalarLen]
  by_cases h1 : l.length ≤ (k + s * (i + (w - 1))) % c.usize
  · rw [if_pos h1, show decide ((k + s * (i + (w - 1))) % c.usize < l.length) = false by simp; omega]
    rfl
  · rw [if_neg h1, show decide ((k + s * (i + (w - 1))) % c.usize < l.length) = true by simp; omega]
    simp only [assert, if_true, ok_bind, PackedStride.loadUnchecked, hd, Bool.false_eq_true, if_false,
      uadd_release hd, umul_release hd, wrap_index]
    by_cases h2 : ∀ j, j < w → (k + s * (i + j)) % c.usize < l.length
    · rw [dif_pos h2, strideLoop_ok (represents_slice c l) _ (fun j => (k + s * (i + j)) % c.usize)
        (fun _ _ => rfl) h2 w 0 _ (by omega)]
      rfl
    · rw [dif_neg h2]
      refine strideLoop_bad hd l _ _ (fun _ _ => rfl) w 0 _ (by omega) ?_
      simp only [Classical.not_forall] at h2
      obtain ⟨j, hj, h3⟩ := h2
      exact ⟨j, Nat.zero_le _, hj, Nat.le_of_not_lt h3⟩

/-- `data.stride_two(..).0.load(2^63 - 1)` reads outside the collection. -/
theorem C27_false : SIMDArray.load release64
    (strideTwo (⟨[1#8, 2, 3, 4, 5]⟩ : Slice _ 2) (#v[0#8, 0], #v[0, 0])).1 (2 ^ 63 - 1) = ub := by
  decide +kernel

example : SIMDArray.load debug64 (strideTwo (⟨[1#8, 2, 3, 4, 5]⟩ : Slice _ 2) (#v[0#8, 0], #v[0, 0])).1 1
    = ok #v[3, 5] := by decide +kernel

/-! ### C33, C34 -/

/-- **C33** for strided iterators: `scalar_len` is the number of elements which a
pass delivers, `len` and `vector_len` that number divided by the width. -/
theorem C33_stride_lengths (c : Cfg) (l : List α) {s k : Nat} (hk : k < s) (d : Vector α w)
    (p : Nat) (hw : 0 < w) (hu : l.length + s * (w + 1) < c.usize) :
    let it : PackedStride (Slice α w) α w := ⟨⟨l⟩, k + s * p, k, s, d⟩
    SIMDSized.scalarLen c it = ok (strided s k l hk).length ∧
    vectorLen w c it = ok ((strided s k l hk).length / w) ∧
    SIMDIterable.len c it = ok ((strided s k l hk).length / w) := by
  have hr := represents_stride (represents_slice c l) hk (k + s * p) d hw hu
  refine ⟨hr.scalarLen, ?_, (stride_driver (represents_slice c l) hk d hw hu).len p⟩
  simp only [vectorLen, hr.scalarLen, ok_bind]
  rw [udiv_ok hw]

/-- **C34** for strided iterators: `advance(n)` moves the position by `n` of its
own elements. -/
theorem C34_stride_advance (c : Cfg) (l : List α) {s k : Nat} (hk : k < s) (d : Vector α w)
    (p n : Nat) (hu : k + s * (p + n) < c.usize) :
    ∃ it', advance c (⟨⟨l⟩, k + s * p, k, s, d⟩ : PackedStride (Slice α w) α w) n = ok it' ∧
      it' = ⟨⟨l⟩, k + s * (p + n), k, s, d⟩ ∧ scalarPos c it' = ok (p + n) := by
  refine ⟨_, ?_, rfl, ?_⟩
  · rw [Nat.mul_add] at hu
    simp only [SIMDIterable.advance, PackedStride.advance]
    rw [umul_ok (by rw [Nat.mul_comm]; omega)]
    simp only [ok_bind]
    rw [Nat.mul_comm n, uadd_ok (by omega)]
    simp only [ok_bind]
    rw [Nat.mul_add, Nat.add_assoc]
  · simp only [SIMDIterable.scalarPos]
    rw [usub_ok (by omega)]
    simp only [ok_bind]
    rw [udiv_ok (by omega), Nat.add_sub_cancel_left, Nat.mul_div_cancel_left _ (by omega)]

/-- **C34** for strided iterators: a pass by `next` from position `p` delivers
the vectors of the elements from number `p` on; after `finalize` there is none. -/
theorem C34_stride_from (c : Cfg) (l : List α) {s k : Nat} (hk : k < s) (d : Vector α w)
    (p : Nat) (hw : 0 < w) (hu : l.length + s * (w + 1) < c.usize) (hp : p ≤ l.length / s) :
    (∃ n, Driver.count w ((strided s k l hk).drop p) n ∧
      Runs c (⟨⟨l⟩, k + s * p, k, s, d⟩ : PackedStride (Slice α w) α w)
        ((fullWindows w ((strided s k l hk).drop p)).take n)
        (ok ⟨⟨l⟩, k + s * (p + n * w), k, s, d⟩)) ∧
    (∃ it', finalize c (⟨⟨l⟩, k + s * p, k, s, d⟩ : PackedStride (Slice α w) α w) = ok it' ∧
      next c it' = ok (none, it') ∧ end_ c it' = ok (none, it')) := by
  have hd := stride_driver (represents_slice c l) hk d hw hu
  constructor
  · obtain ⟨n, h1, -, h3⟩ := hd.runs_from hw p (by simpa using hp)
    exact ⟨n, h3, h1⟩
  · have hle := Nat.mul_div_le l.length s
    have hr := represents_stride (represents_slice c l) hk (k + s * p) d hw hu
    obtain ⟨it', h1, h2, -⟩ := C34_stride_advance c l hk d p (l.length / s - p) (by
      rw [Nat.add_sub_cancel' hp]
      rw [Nat.mul_succ] at hu
      omega)
    rw [Nat.add_sub_cancel' hp] at h2
    refine ⟨it', ?_, ?_, ?_⟩
    · simp only [finalize, hr.scalarLen, hd.pos p (by simpa using hp), ok_bind, strided_length]
      rw [usub_ok hp]
      exact h1
    · subst h2
      have hm : ¬ k + s * (l.length / s + w) < l.length := by
        have h4 := Nat.div_add_mod l.length s
        have h5 := Nat.mod_lt l.length (show s > 0 by omega)
        have h6 : s ≤ s * w := Nat.le_mul_of_pos_right _ hw
        rw [Nat.mul_add]; omega
      exact hd.next_none (l.length / s) (by simp) hm
    · subst h2
      have hm : ¬ k + s * (l.length / s + w) < l.length := by
        have h4 := Nat.div_add_mod l.length s
        have h5 := Nat.mod_lt l.length (show s > 0 by omega)
        have h6 : s ≤ s * w := Nat.le_mul_of_pos_right _ hw
        rw [Nat.mul_add]; omega
      have := hd.end_ (l.length / s) (by simp) hm (by simp)
      simpa using this

end
end Faster
