import Verif.Props.SatSum
import Verif.Props.Tests
/-
C162: sums of slices in all builds. Vectors add without overflow checks, versions of `sum` may check.
-/
namespace Faster
open Res

variable {n w : Nat} {c : Cfg} {k : Kind}

/-- `slice.simd_iter(splat(0)).simd_reduce(splat(0), |acc, v| acc + v).sum()`, with a version `F` of `sum`
(src/intrin/sum.rs). -/
def sliceSum (c : Cfg) (fuel : Nat) (F : Vector (BitVec n) w → Res (BitVec n)) (data : List (BitVec n)) :
    Res (BitVec n) := do
  let (_, acc, _) ← simdReduce c fuel (simdIter (w := w) data (Packed.splat 0)) (Packed.splat 0) ()
    fun _ acc v => ok (acc.zipWith (· + ·) v, ())
  F acc

/-- A version of `sum` with overflow checks in debug builds: it returns the sum modulo `2^n` or panics, and
returns if the absolute values of the lanes have a sum which fits. -/
def CheckedSum (c : Cfg) (k : Kind) (F : Vector (BitVec n) w → Res (BitVec n)) : Prop :=
  ∀ v, (F v = ok (BitVec.ofInt n (listTotal k.signed v.toList)) ∨ (c.debug = true ∧ F v = Res.panic)) ∧
    (listAbs k.signed v.toList ≤ k.hi n → F v = ok (BitVec.ofInt n (listTotal k.signed v.toList)))

theorem abs_nonneg (l : List (BitVec n)) : 0 ≤ listAbs k.signed l := natAbs_sum_nonneg (num k.signed) l

theorem total_le_abs (l : List (BitVec n)) : (listTotal k.signed l).natAbs ≤ listAbs k.signed l := by
  induction l with
  | nil => simp [listTotal, listAbs]
  | cons x l ih =>
    have h1 : listTotal k.signed (x :: l) = num k.signed x + listTotal k.signed l := by simp [listTotal]
    have h2 : listAbs k.signed (x :: l) = (num k.signed x).natAbs + listAbs k.signed l := by simp [listAbs]
    omega

theorem unsigned_total (hk : k.signed = false) (l : List (BitVec n)) : 0 ≤ listTotal k.signed l := by
  rw [hk]; exact listTotal_nonneg l

/-- Sums of parts of a list whose absolute values fit are in range. -/
theorem total_range {l : List (BitVec n)} (h : listAbs k.signed l ≤ k.hi n) :
    k.lo n ≤ listTotal k.signed l ∧ listTotal k.signed l ≤ k.hi n := by
  have h1 := total_le_abs (k := k) l
  refine ⟨?_, by omega⟩
  cases k with
  | i => simp only [Kind.lo, Kind.hi] at h ⊢; omega
  | u => exact unsigned_total rfl l
  | f => exact unsigned_total rfl l

theorem total_fits {l : List (BitVec n)} (h : listAbs k.signed l ≤ k.hi n) :
    Fits k.signed n (listTotal k.signed l) := by
  obtain ⟨h1, h2⟩ := total_range h
  unfold Fits nearest
  cases k <;> simp only [Kind.lo, Kind.hi, Kind.signed, if_true, Bool.false_eq_true, if_false] at h1 h2 ⊢ <;> omega

/-- Lanes whose absolute values have a sum which fits are added exactly. -/
theorem num_add (h0 : 0 < n) {a b : BitVec n}
    (h : ((num k.signed a).natAbs + (num k.signed b).natAbs : Int) ≤ k.hi n) :
    num k.signed (a + b) = num k.signed a + num k.signed b := by
  have h1 : listAbs k.signed [a, b] ≤ k.hi n := by simpa [listAbs] using h
  have h2 := total_range h1
  have h3 : listTotal k.signed [a, b] = num k.signed a + num k.signed b := by simp [listTotal]
  rw [h3] at h2
  have e : a + b = BitVec.ofInt n (num k.signed a + num k.signed b) := by
    rw [BitVec.ofInt_add, num_eq, num_eq, Kind.ofInt_value, Kind.ofInt_value]
  rw [e, num_eq, Kind.value_ofInt _ h0 h2]

theorem add_zip (h0 : 0 < n) : ∀ xs ys : List (BitVec n), xs.length = ys.length →
    listAbs k.signed xs + listAbs k.signed ys ≤ k.hi n →
    listTotal k.signed (List.zipWith (· + ·) xs ys) = listTotal k.signed xs + listTotal k.signed ys ∧
    listAbs k.signed (List.zipWith (· + ·) xs ys) ≤ listAbs k.signed xs + listAbs k.signed ys
  | [], [], _, _ => by simp [listTotal, listAbs]
  | x :: xs, y :: ys, hl, hB => by
    have t (a : BitVec n) (l : List (BitVec n)) : listTotal k.signed (a :: l) = num k.signed a + listTotal k.signed l := by
      simp [listTotal]
    have s (a : BitVec n) (l : List (BitVec n)) :
        listAbs k.signed (a :: l) = (num k.signed a).natAbs + listAbs k.signed l := by simp [listAbs]
    rw [s, s] at hB
    have p1 := abs_nonneg (k := k) xs
    have p2 := abs_nonneg (k := k) ys
    obtain ⟨i1, i2⟩ := add_zip h0 xs ys (by simpa using hl) (by omega)
    have hn := num_add (k := k) h0 (a := x) (b := y) (by omega)
    rw [List.zipWith_cons_cons, t, t, t, s, s, s, i1, hn]
    omega

theorem add_lanes (h0 : 0 < n) (vs : List (Vector (BitVec n) w)) : ∀ acc : Vector (BitVec n) w,
    listAbs k.signed acc.toList + listAbs k.signed (lanes vs) ≤ k.hi n →
    listTotal k.signed (vs.foldl (fun (acc : Vector (BitVec n) w) v => acc.zipWith (· + ·) v) acc).toList =
      listTotal k.signed acc.toList + listTotal k.signed (lanes vs) ∧
    listAbs k.signed (vs.foldl (fun (acc : Vector (BitVec n) w) v => acc.zipWith (· + ·) v) acc).toList ≤
      listAbs k.signed acc.toList + listAbs k.signed (lanes vs) := by
  induction vs with
  | nil => intro acc _; simp [listTotal, listAbs]
  | cons v vs ih =>
    intro acc hB
    rw [lanes_cons, listAbs_append] at hB ⊢
    rw [listTotal_append]
    have p := abs_nonneg (k := k) (lanes vs)
    have e : (acc.zipWith (· + ·) v).toList = List.zipWith (· + ·) acc.toList v.toList := by
      apply List.ext_getElem <;> simp
    obtain ⟨z1, z2⟩ := add_zip (k := k) h0 acc.toList v.toList (by simp) (by omega)
    rw [← e] at z1 z2
    obtain ⟨i1, i2⟩ := ih (acc.zipWith (· + ·) v) (by omega)
    rw [List.foldl_cons]
    omega

theorem zeros_value (m : Nat) : listTotal k.signed (List.replicate m (0 : BitVec n)) = 0 ∧
    listAbs k.signed (List.replicate m (0 : BitVec n)) = 0 := by
  have h : num k.signed (0 : BitVec n) = 0 := by cases k <;> simp [num, Kind.signed]
  constructor
  · unfold listTotal; rw [List.map_replicate, h]; simp
  · unfold listAbs; rw [List.map_replicate, h]; simp

/-- **C162**: what is returned is the sum modulo `2^n`, otherwise a debug build panics. -/
theorem C162_wrapped {F : Vector (BitVec n) w → Res (BitVec n)} (hF : CheckedSum c k F) (hw : 0 < w) (fuel : Nat)
    (data : List (BitVec n)) (hlen : data.length + w < c.usize) (hfuel : data.length / w < fuel) :
    sliceSum c fuel F data = ok (BitVec.ofInt n (listTotal k.signed data)) ∨
      (c.debug = true ∧ sliceSum c fuel F data = Res.panic) := by
  have h1 := C71_sum (signed := k.signed)
    (F := fun v : Vector (BitVec n) w => ok (BitVec.ofInt n (v.toList.map (num k.signed)).sum)) (fun _ => rfl)
    c fuel data hw hlen hfuel
  have h3 := C03_reduce_foldl c fuel data (Packed.splat 0) (Packed.splat 0)
    (fun (acc v : Vector (BitVec n) w) => acc.zipWith (· + ·) v) hw hlen hfuel
  unfold sliceSum
  rw [h3] at h1 ⊢
  simp only [ok_bind] at h1 ⊢
  rcases (hF ((calls w (Packed.splat 0) data).foldl
    (fun (acc v : Vector (BitVec n) w) => acc.zipWith (· + ·) v) (Packed.splat 0))).1 with h | h
  · left; rw [h]; exact h1
  · exact .inr h

/-- **C162**, partial: the exact sum in all builds, if the absolute values have a sum which fits. Missing:
other slices in debug builds (`C162_false`). -/
theorem C162_partial {F : Vector (BitVec n) w → Res (BitVec n)} (hF : CheckedSum c k F) (h0 : 0 < n) (hw : 0 < w)
    (fuel : Nat) (data : List (BitVec n)) (hB : listAbs k.signed data ≤ k.hi n)
    (hlen : data.length + w < c.usize) (hfuel : data.length / w < fuel) :
    ∃ r, sliceSum c fuel F data = ok r ∧ num k.signed r = listTotal k.signed data := by
  have h3 := C03_reduce_foldl c fuel data (Packed.splat 0) (Packed.splat 0)
    (fun (acc v : Vector (BitVec n) w) => acc.zipWith (· + ·) v) hw hlen hfuel
  obtain ⟨t1, t2⟩ := lanes_calls_total k.signed hw (Packed.splat 0 : Vector (BitVec n) w) data
  have hpad : ∃ m, padding w (Packed.splat 0) data = List.replicate m (0 : BitVec n) := by
    unfold padding
    split
    · exact ⟨0, rfl⟩
    · exact ⟨_, by rw [Packed.splat, Vector.toList_replicate, List.take_replicate]⟩
  obtain ⟨m, hm⟩ := hpad
  have hs : (Packed.splat 0 : Vector (BitVec n) w).toList = List.replicate w 0 := by
    rw [Packed.splat, Vector.toList_replicate]
  rw [hm, (zeros_value m).1] at t1
  rw [hm, (zeros_value m).2] at t2
  obtain ⟨a1, a2⟩ := add_lanes (k := k) h0 (calls w (Packed.splat 0) data) (Packed.splat 0)
    (by rw [hs, (zeros_value w).2]; omega)
  rw [hs, (zeros_value w).1] at a1
  rw [hs, (zeros_value w).2] at a2
  have hr := total_range hB
  refine ⟨BitVec.ofInt n (listTotal k.signed data), ?_, by rw [num_eq, Kind.value_ofInt _ h0 hr]⟩
  unfold sliceSum
  rw [h3]
  simp only [ok_bind]
  rw [(hF _).2 (by omega), a1, t1]
  simp

/-- The loop panics or returns the same, and returns if the absolute values have a sum which fits. -/
theorem C162_loop (h0 : 0 < n) (data : List (BitVec n)) (hB : listAbs k.signed data ≤ k.hi n) :
    ∃ r, data.foldlM (addInt c k) 0 = ok r ∧ num k.signed r = listTotal k.signed data := by
  have key : ∀ (l : List (BitVec n)) (a : BitVec n),
      ((num k.signed a).natAbs : Int) + listAbs k.signed l ≤ k.hi n →
      ∃ r, l.foldlM (addInt c k) a = ok r ∧ num k.signed r = num k.signed a + listTotal k.signed l := by
    intro l
    induction l with
    | nil => intro a _; exact ⟨a, rfl, by simp [listTotal]⟩
    | cons x l ih =>
      intro a h
      have s : listAbs k.signed (x :: l) = (num k.signed x).natAbs + listAbs k.signed l := by simp [listAbs]
      have t : listTotal k.signed (x :: l) = num k.signed x + listTotal k.signed l := by simp [listTotal]
      have p := abs_nonneg (k := k) l
      rw [s] at h
      have hn := num_add (k := k) h0 (a := a) (b := x) (by omega)
      obtain ⟨r, h1, h2⟩ := ih (a + x) (by rw [hn]; omega)
      refine ⟨r, ?_, by rw [h2, hn, t]; omega⟩
      have h4 : listAbs k.signed [a, x] ≤ k.hi n := by
        have : listAbs k.signed [a, x] = (num k.signed a).natAbs + (num k.signed x).natAbs := by simp [listAbs]
        omega
      have h3 := total_range h4
      have h5 : listTotal k.signed [a, x] = k.value a + k.value x := by simp [listTotal, num_eq]
      rw [h5] at h3
      rw [List.foldlM_cons]
      have : addInt c k a x = ok (a + x) := by unfold addInt overflowCheck; rw [if_pos h3]
      rw [this]
      exact h1
  have hz : num k.signed (0 : BitVec n) = 0 := by cases k <;> simp [num, Kind.signed]
  obtain ⟨r, h1, h2⟩ := key data 0 (by rw [hz]; simpa using hB)
  exact ⟨r, h1, by rw [h2, hz]; simp⟩

/-- **C162**: every version of `sum` for integers satisfies the hypothesis in every build. -/
theorem C162_versions (c : Cfg) {o : I8Ops 16} (ho : I8Correct o) {o' : I8Ops 32} (ho' : I8Correct o') {up}
    (hup : UpCorrect false up) :
    (∀ (n w : Nat) (k : Kind), 0 < n → CheckedSum c k (sumFallback (n := n) (w := w) c k)) ∧
    CheckedSum c .u (sumU8 (w := 16) c [0, 4]) ∧ CheckedSum c .u (sumU8 (w := 32) c [0, 4, 8, 12]) ∧
    CheckedSum c .i (sumI8 o [0, 4]) ∧ CheckedSum c .i (sumI8 o' [0, 4, 8, 12]) ∧
    CheckedSum c .i sumI16x8 ∧ CheckedSum c .i (sumI16x16 c) ∧ CheckedSum c .i (sumI32x8 c) ∧
    CheckedSum c .u (sumU16x16 c up) := by
  have take (k : Kind) {n : Nat} (l : List (BitVec n)) (j : Nat) (h : listAbs k.signed l ≤ k.hi n) :
      Fits k.signed n (listTotal k.signed (l.take j)) ∧ Fits k.signed n (listTotal k.signed (l.drop j)) := by
    have e := listAbs_append k.signed (l.take j) (l.drop j)
    rw [List.take_append_drop] at e
    have p1 := abs_nonneg (k := k) (l.take j)
    have p2 := abs_nonneg (k := k) (l.drop j)
    exact ⟨total_fits (by omega), total_fits (by omega)⟩
  refine ⟨fun n w k h0 v => ?_, fun v => ⟨.inl (C41_u8x16 c v), fun _ => C41_u8x16 c v⟩,
    fun v => ⟨.inl (C41_u8x32 c v), fun _ => C41_u8x32 c v⟩, fun v => ⟨.inl (C41_i8x16 ho v), fun _ => C41_i8x16 ho v⟩,
    fun v => ⟨.inl (C41_i8x32 ho' v), fun _ => C41_i8x32 ho' v⟩, fun v => ⟨.inl (C41_i16x8 v), fun _ => C41_i16x8 v⟩,
    fun v => ⟨?_, fun h => C41_i16x16_partial c v (.inr ⟨(take .i v.toList 8 h).1, (take .i v.toList 8 h).2, total_fits h⟩)⟩,
    fun v => ⟨?_, fun h => C41_i32x8_partial c v (.inr ⟨(take .i v.toList 4 h).1, (take .i v.toList 4 h).2, total_fits h⟩)⟩,
    fun v => ⟨.inl (C41_u16x16 c hup v), fun _ => C41_u16x16 c hup v⟩⟩
  · constructor
    · by_cases hd : c.debug = true
      · by_cases hj : ∀ j ≤ w, Fits k.signed n (List.sum (List.map (num k.signed) (List.take j v.toList)))
        · exact .inl (C41_fallback_fits c k h0 v hj)
        · push Not at hj
          obtain ⟨j, h1, h2⟩ := hj
          exact .inr ⟨hd, C41_fallback_debug c hd k h0 v h1 h2⟩
      · exact .inl (C41_fallback_release c (by simpa using hd) k v)
    · intro h
      exact C41_fallback_fits c k h0 v fun j _ => (take k v.toList j h).1
  · rw [C41_i16x16]
    split
    · rename_i h; exact .inr ⟨h.1, rfl⟩
    · exact .inl rfl
  · rw [C41_i32x8]
    split
    · rename_i h; exact .inr ⟨h.1, rfl⟩
    · exact .inl rfl

/-- **C162** is false in debug builds: lanes which overflow wrap silently where a loop panics; and `sum` panics
where the sums of the loop are all small. -/
theorem C162_false :
    (sliceSum (n := 8) (w := 2) debug64 9 (sumFallback debug64 .u) [200#8, 1#8, 100#8, 1#8] = ok 46#8 ∧
      [200#8, 1#8, 100#8, 1#8].foldlM (addInt debug64 .u) 0 = Res.panic) ∧
    (sliceSum (n := 8) (w := 4) debug64 9 (sumFallback debug64 .i) [100#8, 0#8, 156#8, 0#8, 0#8, 100#8, 0#8, 0#8] = Res.panic ∧
      [100#8, 0#8, 156#8, 0#8, 0#8, 100#8, 0#8, 0#8].foldlM (addInt debug64 .i) 0 = ok 100#8) := by
  refine ⟨⟨?_, ?_⟩, ?_, ?_⟩ <;> decide +kernel

/-- A slice within the bounds of `C162_partial`. -/
example : listAbs Kind.i.signed [50#8, 206#8, 3#8, 250#8, 7#8] ≤ Kind.hi 8 .i := by decide +kernel

example : sliceSum (n := 8) (w := 2) debug64 9 (sumFallback debug64 .i) [50#8, 206#8, 3#8, 250#8, 7#8] = ok 4#8 := by
  decide +kernel

end Faster
