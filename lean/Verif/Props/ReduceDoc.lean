import Verif.Props.Bench
import Verif.Props.Checked
/-
C141: which elements each lane of `simd_reduce` combines, and the results shown in
its documentation (src/iters.rs:106-157, src/zip.rs:159-208).
-/
namespace Faster
open Res SIMDSized SIMDIterable SIMDIterator

section
variable {α β : Type} {w : Nat}

/-- The documentation packs the elements of the last call from lane 0 on: lane `j`
combines the elements `j`, `j + w`, `j + 2w`, …, and the default in the last call if
the elements are used up. -/
def documentedLane (w : Nat) (d : Vector α w) (l : List α) (j : Nat) (hj : j < w) : List α :=
  (List.range (l.length / w)).filterMap (fun i => l[i * w + j]?) ++
    if l.length % w = 0 then [] else
      if j < l.length % w then l[l.length / w * w + j]?.toList else [d[j]]

/-- What lane `j` combines: the elements of the last call are the last lanes. -/
def actualLane (w : Nat) (d : Vector α w) (l : List α) (j : Nat) (hj : j < w) : List α :=
  (List.range (l.length / w)).filterMap (fun i => l[i * w + j]?) ++
    if l.length % w = 0 then [] else
      if w ≤ j + l.length % w then l[l.length + j - w]?.toList else [d[j]]

theorem full_lt (l : List α) {i j : Nat} (hi : i < l.length / w) (hj : j < w) :
    i * w + j < l.length := by
  have h : (i + 1) * w ≤ l.length / w * w := Nat.mul_le_mul_right w hi
  have := Nat.div_mul_le_self l.length w
  rw [Nat.succ_mul] at h
  omega

theorem column_full (l : List α) (j : Nat) (hj : j < w) :
    column (fullWindows w l) j hj =
      (List.range (l.length / w)).filterMap (fun i => l[i * w + j]?) := by
  have h : ∀ n (hn : n ≤ l.length / w),
      (List.range n).filterMap (fun i => l[i * w + j]?) =
        List.ofFn (n := n) fun i => l[i.val * w + j]'(full_lt l (by omega) hj) := by
    intro n
    induction n with
    | zero => intro _; simp
    | succ n ih =>
      intro hn
      rw [List.range_succ, List.filterMap_append, ih (by omega), List.ofFn_succ_last]
      simp [List.getElem?_eq_getElem (full_lt l (show n < l.length / w by omega) hj)]
  rw [h _ (Nat.le_refl _), column, fullWindows, List.map_ofFn]
  congr 1
  funext i
  simp

theorem column_calls (d : Vector α w) (l : List α) (hw : 0 < w) (j : Nat) (hj : j < w) :
    column (calls w d l) j hj = actualLane w d l j hj := by
  have h1 : column (calls w d l) j hj = column (fullWindows w l) j hj ++
      column (if l.length % w = 0 then [] else [padFront d (leftover w l)]) j hj := by
    simp [column, calls]
  rw [h1, column_full, actualLane]
  congr 1
  by_cases h0 : l.length % w = 0
  · simp [h0, column]
  · rw [if_neg h0, if_neg h0]
    have hm := Nat.mod_lt l.length hw
    have hdm := Nat.div_add_mod' l.length w
    have hl : (leftover w l).length = l.length % w := by
      rw [leftover, List.length_drop]; omega
    simp only [column, List.map_cons, List.map_nil, padFront, Vector.getElem_ofFn, hl]
    by_cases hc : w ≤ j + l.length % w
    · have hlt : l.length + j - w < l.length := by omega
      have e : l.length / w * w + (j - (w - l.length % w)) = l.length + j - w := by omega
      rw [if_pos hc, leftover, List.getElem?_drop, e, List.getElem?_eq_getElem hlt]
      simp [Option.filter, show w - l.length % w ≤ j by omega]
    · rw [if_neg hc]
      cases (leftover w l)[j - (w - l.length % w)]? <;>
        simp [Option.filter, show ¬ w - l.length % w ≤ j by omega]

theorem foldl_zipWith_lane (op : β → α → β) (vs : List (Vector α w)) (a : Vector β w) (j : Nat)
    (hj : j < w) :
    (vs.foldl (fun a v => Vector.zipWith op a v) a)[j] = (column vs j hj).foldl op a[j] := by
  induction vs generalizing a with
  | nil => rfl
  | cons v vs ih => simp only [List.foldl_cons, column, List.map_cons]; rw [ih]; simp [column]

/-- A lane-wise `simd_reduce` combines in lane `j` the elements `j`, `j + w`, … of the
full vectors; in the last call of a slice that is not a multiple of the width, the last
`len % w` lanes get the remaining elements and the lanes before them the default. -/
theorem C141_lane (c : Cfg) (fuel : Nat) (data : List α) (d : Vector α w) (start : Vector β w)
    (op : β → α → β) (hw : 0 < w) (hlen : data.length + w < c.usize)
    (hfuel : data.length / w < fuel) :
    ∃ acc, simdReduce c fuel (simdIter data d) start ()
        (fun _ a v => ok (Vector.zipWith op a v, ())) = ok (⟨data.length, ⟨data⟩, d⟩, acc, ()) ∧
      ∀ j (hj : j < w), acc[j] = (actualLane w d data j hj).foldl op start[j] := by
  refine ⟨_, C03_reduce_foldl c fuel data d start (fun a v => Vector.zipWith op a v) hw hlen hfuel, ?_⟩
  intro j hj
  rw [foldl_zipWith_lane, column_calls d data hw]

/-- The documented lanes are the actual ones for slices of a multiple of the width. -/
theorem C141_documented_partial (c : Cfg) (fuel : Nat) (data : List α) (d : Vector α w)
    (start : Vector β w) (op : β → α → β) (hw : 0 < w) (hlen : data.length + w < c.usize)
    (hfuel : data.length / w < fuel) (h0 : data.length % w = 0) :
    ∃ acc, simdReduce c fuel (simdIter data d) start ()
        (fun _ a v => ok (Vector.zipWith op a v, ())) = ok (⟨data.length, ⟨data⟩, d⟩, acc, ()) ∧
      ∀ j (hj : j < w), acc[j] = (documentedLane w d data j hj).foldl op start[j] := by
  obtain ⟨acc, h, e⟩ := C141_lane c fuel data d start op hw hlen hfuel
  refine ⟨acc, h, fun j hj => ?_⟩
  rw [e, actualLane, documentedLane, if_pos h0, if_pos h0]

theorem filterMap_replicate (n k j : Nat) (x : α) (h : ∀ i < k, i * w + j < n) :
    (List.range k).filterMap (fun i => (List.replicate n x)[i * w + j]?) = List.replicate k x := by
  induction k with
  | zero => rfl
  | succ k ih =>
    rw [List.range_succ, List.filterMap_append, ih (fun i hi => h i (by omega)), List.replicate_succ']
    simp [h k (by omega)]

theorem foldl_replicate_iterate (op : β → α → β) (x : α) (k : Nat) (b : β) :
    (List.replicate k x).foldl op b = (fun a => op a x)^[k] b := by
  induction k generalizing b with
  | zero => rfl
  | succ k ih => rw [List.replicate_succ, List.foldl_cons, ih]; rfl

/-- How many elements lane `j` combines, of `n`. -/
def laneCount (w n j : Nat) : Nat := n / w + if n % w ≠ 0 ∧ w ≤ j + n % w then 1 else 0

/-- The same, documented. -/
def documentedCount (w n j : Nat) : Nat := n / w + if j < n % w then 1 else 0

/-- Reducing a slice of equal elements with a neutral default: lane `j` has combined
`n / w` elements, and the last `n % w` lanes one more. -/
theorem C141_equal (c : Cfg) (fuel n : Nat) (x : α) (d : Vector α w) (start : Vector β w)
    (op : β → α → β) (hd : ∀ a j (hj : j < w), op a d[j] = a) (hw : 0 < w)
    (hlen : n + w < c.usize) (hfuel : n / w < fuel) :
    ∃ acc, simdReduce c fuel (simdIter (List.replicate n x) d) start ()
        (fun _ a v => ok (Vector.zipWith op a v, ())) = ok (⟨n, ⟨List.replicate n x⟩, d⟩, acc, ()) ∧
      ∀ j (hj : j < w), acc[j] = (fun a => op a x)^[laneCount w n j] start[j] := by
  obtain ⟨acc, h, e⟩ := C141_lane c fuel (List.replicate n x) d start op hw (by simpa using hlen)
    (by simpa using hfuel)
  refine ⟨acc, by simpa using h, fun j hj => ?_⟩
  have hm := Nat.mod_lt n hw
  rw [e, actualLane, laneCount]
  have hf := filterMap_replicate (w := w) n (n / w) j x
    (fun i hi => by simpa using full_lt (List.replicate n x) (by simpa using hi) hj)
  simp only [List.length_replicate] at *
  rw [hf, List.foldl_append, foldl_replicate_iterate]
  by_cases h0 : n % w = 0
  · simp [h0]
  · rw [if_neg h0]
    by_cases hc : w ≤ j + n % w
    · have hle := Nat.mod_le n w
      rw [if_pos hc, if_pos ⟨h0, hc⟩, Function.iterate_succ_apply']
      simp [show n + j - w < n by omega]
    · rw [if_neg hc, if_neg (fun h => hc h.2)]
      simp [hd]

/-- If combining an element always changes the accumulator, the documented result is
the actual one exactly for multiples of the width. -/
theorem C141_equal_iff (c : Cfg) (fuel n : Nat) (x : α) (d : Vector α w) (start : Vector β w)
    (op : β → α → β) (hd : ∀ a j (hj : j < w), op a d[j] = a) (hx : ∀ a, op a x ≠ a) (hw : 0 < w)
    (hlen : n + w < c.usize) (hfuel : n / w < fuel) :
    ∃ acc, simdReduce c fuel (simdIter (List.replicate n x) d) start ()
        (fun _ a v => ok (Vector.zipWith op a v, ())) = ok (⟨n, ⟨List.replicate n x⟩, d⟩, acc, ()) ∧
      ((∀ j (hj : j < w), acc[j] = (fun a => op a x)^[documentedCount w n j] start[j]) ↔
        n % w = 0) := by
  obtain ⟨acc, h, e⟩ := C141_equal c fuel n x d start op hd hw hlen hfuel
  refine ⟨acc, h, fun hdoc => ?_, fun h0 j hj => ?_⟩
  · have hm := Nat.mod_lt n hw
    rcases Nat.eq_zero_or_pos (n % w) with h0 | h0
    · exact h0
    · exfalso
      have h1 := (e 0 hw).symm.trans (hdoc 0 hw)
      rw [laneCount, documentedCount, if_neg (by omega), if_pos h0,
        Function.iterate_succ_apply'] at h1
      exact hx _ h1.symm
  · rw [e, laneCount, documentedCount]
    simp [h0]

end

/-! ### The documented numbers -/

section
variable {w : Nat}

theorem ieee_zero32 : ieee (0#32) = .fin ((0 : ℤ) : ℚ) := by
  have := (fzero_facts (n := 32) (.inl rfl) false).2
  rw [show fZero 32 false = 0#32 by decide] at this
  simpa using this

/-- The example of the documentation for every number `n` of elements and every width:
summing `[2.0f32; n]` gives exactly twice the number of elements each lane combines. -/
theorem C141_twos (c : Cfg) (fuel n : Nat) (hw : 0 < w) (hlen : n + w < c.usize)
    (hfuel : n / w < fuel) (hn : 2 * (n / w + 1) ≤ 2 ^ 24) :
    ∃ acc : Vector (BitVec 32) w,
      simdReduce c fuel (simdIter (List.replicate n f32Two) (Packed.splat 0#32)) (Packed.splat 0#32) ()
        (fun _ a v => ok (Vector.zipWith fadd a v, ())) =
          ok (⟨n, ⟨List.replicate n f32Two⟩, Packed.splat 0#32⟩, acc, ()) ∧
      ∀ j (hj : j < w), ieee acc[j] = .fin (2 * laneCount w n j : ℕ) := by
  have hr := C03_reduce_foldl c fuel (List.replicate n f32Two) (Packed.splat 0#32)
    (Packed.splat 0#32) (fun (a v : Vector (BitVec 32) w) => Vector.zipWith fadd a v) hw
    (by simpa using hlen) (by simpa using hfuel)
  rw [List.length_replicate] at hr
  refine ⟨_, hr, ?_⟩
  let z : BitVec 32 → ℤ := fun x => if x = f32Two then 2 else 0
  have hsum : ∀ j (hj : j < w), ((calls w (Packed.splat 0#32) (List.replicate n f32Two)).map
      fun v => z (v[j]?.getD 0)).sum = 2 * laneCount w n j := by
    intro j hj
    have h1 : ((calls w (Packed.splat 0#32) (List.replicate n f32Two)).map fun v => z (v[j]?.getD 0)) =
        (column (calls w (Packed.splat 0#32) (List.replicate n f32Two)) j hj).map z := by
      rw [column, List.map_map]
      apply List.map_congr_left
      intro v _
      simp [hj]
    have hm := Nat.mod_lt n hw
    have hle := Nat.mod_le n w
    have hf := filterMap_replicate (w := w) n (n / w) j f32Two
      (fun i hi => by simpa using full_lt (List.replicate n f32Two) (by simpa using hi) hj)
    rw [h1, column_calls _ _ hw, actualLane, laneCount]
    simp only [List.length_replicate] at *
    rw [hf, List.map_append, List.sum_append]
    have hz2 : z f32Two = 2 := if_pos rfl
    have hz0 : z 0#32 = 0 := if_neg (by decide)
    rw [List.map_replicate, hz2, List.sum_replicate]
    by_cases h0 : n % w = 0
    · simp [h0, mul_comm]
    · rw [if_neg h0]
      by_cases hc : w ≤ j + n % w
      · rw [if_pos hc, if_pos ⟨h0, hc⟩]
        simp [show n + j - w < n by omega, hz2]
        omega
      · rw [if_neg hc, if_neg (fun h => hc h.2)]
        simp [Packed.splat, hz0, mul_comm]
  have hz : ∀ x ∈ lanes (calls w (Packed.splat 0#32) (List.replicate n f32Two)),
      ieee (id x) = .fin (z x) ∧ 0 ≤ z x := by
    intro x hx
    obtain ⟨v, hv, hxv⟩ := List.mem_flatMap.1 hx
    obtain ⟨j, hj, rfl⟩ := List.getElem_of_mem hxv
    have hj' : j < w := by simpa using hj
    have hmem : v[j] ∈ column (calls w (Packed.splat 0#32) (List.replicate n f32Two)) j hj' :=
      List.mem_map.2 ⟨v, hv, rfl⟩
    have hor : v[j] = f32Two ∨ v[j] = 0#32 := by
      rw [column_calls _ _ hw, actualLane, List.mem_append] at hmem
      rcases hmem with h | h
      · obtain ⟨i, -, hi⟩ := List.mem_filterMap.1 h
        exact .inl (List.eq_of_mem_replicate (List.mem_of_getElem? hi))
      · split at h
        · cases h
        · split at h
          · exact .inl (List.eq_of_mem_replicate (List.mem_of_getElem? (Option.mem_toList.1 h)))
          · exact .inr (by simpa [Packed.splat] using h)
    have e : v.toList[j] = v[j] := by simp
    rw [e]
    rcases hor with h | h
    · rw [h]
      exact ⟨by simpa [z] using f32_constants.2.2.1, by simp [z]⟩
    · rw [h]
      exact ⟨by rw [show z 0#32 = 0 from if_neg (by decide)]; exact ieee_zero32, by
        rw [show z 0#32 = 0 from if_neg (by decide)]⟩
  have key := acc_int id z (calls w (Packed.splat 0#32) (List.replicate n f32Two)) hz
    (Packed.splat 0#32) (fun _ => 0)
    (fun i hi => ⟨by simpa [Packed.splat] using ieee_zero32, le_refl _⟩) (by
      intro i hi
      rw [hsum i hi, laneCount]
      split <;> (push_cast; omega))
  intro j hj
  have h := key j hj
  rw [hsum j hj] at h
  simp only [Vector.map_id_fun, id_eq, zero_add] at h
  rw [h]
  push_cast
  rfl

/-- With 4 lanes the documented call and result are right. -/
theorem C141_doc4 :
    (calls 4 (Packed.splat 0#32) (List.replicate 100 f32Two)).getLast? = some (Packed.splat f32Two) ∧
    ∃ acc : Vector (BitVec 32) 4,
      simdReduce release64 100 (simdIter (List.replicate 100 f32Two) (Packed.splat 0#32))
        (Packed.splat 0#32) () (fun _ a v => ok (Vector.zipWith fadd a v, ())) =
          ok (⟨100, ⟨List.replicate 100 f32Two⟩, Packed.splat 0#32⟩, acc, ()) ∧
      ∀ j (hj : j < 4), ieee acc[j] = .fin 50 := by
  refine ⟨by decide +kernel, ?_⟩
  obtain ⟨acc, h, e⟩ := C141_twos (w := 4) release64 100 100 (by decide) (by decide) (by decide) (by decide)
  refine ⟨acc, h, fun j hj => ?_⟩
  rw [e j hj, show laneCount 4 100 j = 25 by simp [laneCount]]
  norm_num

/-- With 8 lanes the last call is passed the two halves the other way round, and so are
those of the result. -/
theorem C141_doc8 :
    (calls 8 (Packed.splat 0#32) (List.replicate 100 f32Two)).getLast? =
      some #v[0, 0, 0, 0, f32Two, f32Two, f32Two, f32Two] ∧
    ∃ acc : Vector (BitVec 32) 8,
      simdReduce release64 100 (simdIter (List.replicate 100 f32Two) (Packed.splat 0#32))
        (Packed.splat 0#32) () (fun _ a v => ok (Vector.zipWith fadd a v, ())) =
          ok (⟨100, ⟨List.replicate 100 f32Two⟩, Packed.splat 0#32⟩, acc, ()) ∧
      ∀ j (hj : j < 8), ieee acc[j] = .fin (if j < 4 then 24 else 26) := by
  refine ⟨by decide +kernel, ?_⟩
  obtain ⟨acc, h, e⟩ := C141_twos (w := 8) release64 100 100 (by decide) (by decide) (by decide) (by decide)
  refine ⟨acc, h, fun j hj => ?_⟩
  rw [e j hj]
  by_cases hc : j < 4
  · rw [if_pos hc, show laneCount 8 100 j = 12 by rw [laneCount, if_neg (by omega)]]; norm_num
  · rw [if_neg hc, show laneCount 8 100 j = 13 by rw [laneCount, if_pos (by omega)]]; norm_num

/-- The documentation's 8-lane result (`26.0` in the first four lanes, `24.0` in the last)
is not what the reduction gives. -/
theorem C141_false :
    ¬ ∃ (it : SIMDIter (Slice (BitVec 32) 8) (BitVec 32) 8) (acc : Vector (BitVec 32) 8),
      simdReduce release64 100 (simdIter (List.replicate 100 f32Two) (Packed.splat 0#32))
        (Packed.splat 0#32) () (fun _ a v => ok (Vector.zipWith fadd a v, ())) = ok (it, acc, ()) ∧
      ∀ j (hj : j < 8), ieee acc[j] = .fin (if j < 4 then 26 else 24) := by
  rintro ⟨it, acc, h, e⟩
  obtain ⟨-, acc', h', e'⟩ := C141_doc8
  rw [h'] at h
  injection h with h
  injection h with _ h
  injection h with h _
  subst h
  have := (e' 0 (by decide)).symm.trans (e 0 (by decide))
  norm_num at this

end

/-! ### Non-vacuity -/

example : actualLane 4 #v[0, 0, 0, 0] [1, 2, 3, 4, 5, 6] 0 (by decide) = [1, 0] ∧
    actualLane 4 #v[0, 0, 0, 0] [1, 2, 3, 4, 5, 6] 2 (by decide) = [3, 5] ∧
    documentedLane 4 #v[0, 0, 0, 0] [1, 2, 3, 4, 5, 6] 0 (by decide) = [1, 5] := by decide +kernel

example : ∃ acc : Vector Nat 4, simdReduce release64 9 (simdIter [1, 2, 3, 4, 5, 6] #v[0, 0, 0, 0])
    #v[0, 0, 0, 0] () (fun _ a v => ok (Vector.zipWith (· + ·) a v, ())) =
      ok (⟨6, ⟨[1, 2, 3, 4, 5, 6]⟩, #v[0, 0, 0, 0]⟩, acc, ()) ∧
    ∀ j (hj : j < 4), acc[j] = (actualLane 4 #v[0, 0, 0, 0] [1, 2, 3, 4, 5, 6] j hj).foldl (· + ·)
      (#v[0, 0, 0, 0] : Vector Nat 4)[j] :=
  C141_lane release64 9 [1, 2, 3, 4, 5, 6] _ _ _ (by decide) (by decide) (by decide)

/-- The hypotheses of `C141_equal_iff` hold of a sum of ones. -/
example : ∃ acc : Vector Nat 4, simdReduce release64 9 (simdIter (List.replicate 6 1) (Packed.splat 0))
    (Packed.splat 0) () (fun _ a v => ok (Vector.zipWith (· + ·) a v, ())) =
      ok (⟨6, ⟨List.replicate 6 1⟩, Packed.splat 0⟩, acc, ()) ∧
    ((∀ j (hj : j < 4), acc[j] = (fun a => a + 1)^[documentedCount 4 6 j]
      (Packed.splat 0 : Vector Nat 4)[j]) ↔ 6 % 4 = 0) :=
  C141_equal_iff release64 9 6 1 _ _ _ (by simp [Packed.splat]) (by simp) (by decide) (by decide)
    (by decide)

end Faster
