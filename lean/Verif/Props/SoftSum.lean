import Verif.Props.SliceSum
import Verif.Props.Checked
/-
C163: sums of slices with software vectors, whose operators are checked in debug builds.
-/
namespace Faster
open Res

variable {n w : Nat} {c : Cfg} {k : Kind}

/-- `slice.simd_iter(splat(0)).simd_reduce(splat(0), |acc, v| acc + v).sum()` on targets without vector
instructions: `+` is that of `impl_ops!` (src/arch/unknown/vecs.rs:181-197), `sum` the fallback. -/
def sliceSumSoft (c : Cfg) (fuel : Nat) (k : Kind) (w : Nat) (data : List (BitVec n)) : Res (BitVec n) := do
  let (_, acc, _) ← simdReduce c fuel (simdIter (w := w) data (Packed.splat 0)) (Packed.splat 0) ()
    fun _ acc v => do
      let u ← Soft.binop (addInt c k) 0 acc v
      ok (u, ())
  sumFallback c k acc

theorem addInt_total (a b : BitVec n) : (∃ y, addInt c k a b = ok y) ∨ addInt c k a b = Res.panic := by
  unfold addInt overflowCheck
  split
  · exact .inl ⟨_, rfl⟩
  · split
    · exact .inr rfl
    · exact .inl ⟨_, rfl⟩

/-- What `+` returns are the bits of the wrapped sum; in debug builds it is the exact sum. -/
theorem addInt_value (h0 : 0 < n) {a b y : BitVec n} (h : addInt c k a b = ok y) :
    y = a + b ∧ (c.debug = true → num k.signed y = num k.signed a + num k.signed b) := by
  unfold addInt overflowCheck at h
  split at h
  · rename_i hb
    cases h
    refine ⟨rfl, fun _ => ?_⟩
    rw [num_eq, num_eq, num_eq, Kind.add_eq k a b, Kind.value_ofInt _ h0 hb]
  · split at h
    · cases h
    · rename_i hd
      cases h
      exact ⟨rfl, fun h => absurd h hd⟩

/-- Either all lanes can be added, or `+` panics. -/
theorem softAdd_cases (a b : Vector (BitVec n) w) :
    ((∀ i (hi : i < w), addInt c k a[i] b[i] = ok (a[i] + b[i])) ∧
      Soft.binop (addInt c k) 0 a b = ok (a.zipWith (· + ·) b)) ∨
    Soft.binop (addInt c k) 0 a b = Res.panic := by
  have hl := Lifts2.binop (w := w) (0 : BitVec n) (addInt_total (c := c) (k := k))
  by_cases h : ∃ i, ∃ hi : i < w, addInt c k a[i] b[i] = Res.panic
  · obtain ⟨i, hi, e⟩ := h
    exact .inr (hl.panics a b i hi e)
  · have hall : ∀ i (hi : i < w), addInt c k a[i] b[i] = ok (a[i] + b[i]) := by
      intro i hi
      have h1 : addInt c k a[i] b[i] ≠ Res.panic := fun e => h ⟨i, hi, e⟩
      unfold addInt overflowCheck at h1 ⊢
      split
      · rfl
      · rename_i hb
        rw [if_neg hb] at h1
        split
        · rename_i hd; rw [if_pos hd] at h1; exact absurd rfl h1
        · rfl
    exact .inl ⟨hall, hl.lanes a b _ fun i hi => by rw [hall i hi]; simp⟩

theorem exact_zip (h0 : 0 < n) (hd : c.debug = true) {a b : Vector (BitVec n) w}
    (h : ∀ i (hi : i < w), addInt c k a[i] b[i] = ok (a[i] + b[i])) :
    listTotal k.signed (a.zipWith (· + ·) b).toList = listTotal k.signed a.toList + listTotal k.signed b.toList := by
  have key : ∀ xs ys : List (BitVec n), xs.length = ys.length →
      (∀ i (h1 : i < xs.length) (h2 : i < ys.length), num k.signed (xs[i] + ys[i]) = num k.signed xs[i] + num k.signed ys[i]) →
      listTotal k.signed (List.zipWith (· + ·) xs ys) = listTotal k.signed xs + listTotal k.signed ys := by
    intro xs
    induction xs with
    | nil => intro ys hl _; cases ys with
      | nil => simp [listTotal]
      | cons y ys => simp at hl
    | cons x xs ih =>
      intro ys hl hh
      cases ys with
      | nil => simp at hl
      | cons y ys =>
        have i1 := ih ys (by simpa using hl) fun i h1 h2 => by
          have := hh (i + 1) (by simpa using h1) (by simpa using h2)
          simpa using this
        have i2 := hh 0 (by simp) (by simp)
        have t (a : BitVec n) (l : List (BitVec n)) :
            listTotal k.signed (a :: l) = num k.signed a + listTotal k.signed l := by simp [listTotal]
        rw [List.zipWith_cons_cons, t, t, t, i1]
        simp only [List.getElem_cons_zero] at i2
        omega
  have e : (a.zipWith (· + ·) b).toList = List.zipWith (· + ·) a.toList b.toList := by
    apply List.ext_getElem <;> simp
  rw [e]
  refine key _ _ (by simp) fun i h1 h2 => ?_
  simp only [Vector.length_toList] at h1
  have := (addInt_value h0 (h i h1)).2 hd
  simpa using this

/-- The accumulators of software vectors: either those of native vectors, with exact totals in debug builds, or
a panic in a debug build. -/
theorem soft_fold (h0 : 0 < n) (vs : List (Vector (BitVec n) w)) : ∀ start : Vector (BitVec n) w,
    (vs.foldlM (fun (p : Vector (BitVec n) w × Unit) v => (do
        let u ← Soft.binop (addInt c k) 0 p.1 v
        ok (u, ()) : Res (Vector (BitVec n) w × Unit))) (start, ()) =
      ok (vs.foldl (fun (acc : Vector (BitVec n) w) v => acc.zipWith (· + ·) v) start, ()) ∧
      (c.debug = true →
        listTotal k.signed (vs.foldl (fun (acc : Vector (BitVec n) w) v => acc.zipWith (· + ·) v) start).toList =
          listTotal k.signed start.toList + listTotal k.signed (lanes vs))) ∨
    (c.debug = true ∧ vs.foldlM (fun (p : Vector (BitVec n) w × Unit) v => (do
        let u ← Soft.binop (addInt c k) 0 p.1 v
        ok (u, ()) : Res (Vector (BitVec n) w × Unit))) (start, ()) = Res.panic) := by
  induction vs with
  | nil => intro start; exact .inl ⟨rfl, fun _ => by simp [listTotal]⟩
  | cons v vs ih =>
    intro start
    rw [List.foldlM_cons, List.foldl_cons]
    rcases softAdd_cases (c := c) (k := k) start v with ⟨hl, h⟩ | h
    · simp only [h, ok_bind]
      rcases ih (start.zipWith (· + ·) v) with ⟨i1, i2⟩ | i
      · refine .inl ⟨i1, fun hd => ?_⟩
        rw [i2 hd, exact_zip h0 hd hl, lanes_cons, listTotal_append]
        omega
      · exact .inr i
    · refine .inr ⟨?_, by simp only [h]; rfl⟩
      by_contra hd
      rcases Bool.eq_false_or_eq_true c.debug with h' | h'
      · exact hd h'
      · have hl := (Lifts2.binop (w := w) (0 : BitVec n) (addInt_total (c := c) (k := k))).lanes start v
          (start.zipWith (· + ·) v) fun i hi => by
            unfold addInt overflowCheck
            simp [h']
        rw [hl] at h
        cases h

/-- **C163**, all builds: software vectors return what native vectors with as many lanes return, or a debug
build panics. -/
theorem C163_native (h0 : 0 < n) (hw : 0 < w) (fuel : Nat) (data : List (BitVec n))
    (hlen : data.length + w < c.usize) (hfuel : data.length / w < fuel) :
    sliceSumSoft c fuel k w data = sliceSum c fuel (sumFallback (w := w) c k) data ∨
      (c.debug = true ∧ sliceSumSoft c fuel k w data = Res.panic) := by
  have h3 := C03_reduce_foldl c fuel data (Packed.splat 0) (Packed.splat 0)
    (fun (acc v : Vector (BitVec n) w) => acc.zipWith (· + ·) v) hw hlen hfuel
  unfold sliceSum sliceSumSoft
  rw [h3, C03_reduce_fold c fuel data (Packed.splat 0) (Packed.splat 0) () _ hw hlen hfuel]
  simp only [bind_assoc, ok_bind]
  rcases soft_fold (c := c) (k := k) h0 (calls w (Packed.splat 0) data) (Packed.splat 0) with ⟨h, -⟩ | ⟨hd, h⟩
  · left
    exact (congrArg (fun r => r >>= fun p => sumFallback c k p.1) h).trans rfl
  · exact .inr ⟨hd, (congrArg (fun r => r >>= fun p => sumFallback c k p.1) h).trans rfl⟩

/-- **C163**, release builds: the sum modulo `2^n`, for every number of lanes. -/
theorem C163_release (hc : c.debug = false) (h0 : 0 < n) (hw : 0 < w) (fuel : Nat) (data : List (BitVec n))
    (hlen : data.length + w < c.usize) (hfuel : data.length / w < fuel) :
    sliceSumSoft c fuel k w data = ok (BitVec.ofInt n (listTotal k.signed data)) := by
  rcases C163_native (c := c) (k := k) h0 hw fuel data hlen hfuel with h | ⟨hd, -⟩
  · rw [h]
    exact C71_sum (signed := k.signed) (fun v => C41_fallback_release c hc k v) c fuel data hw hlen hfuel
  · simp [hc] at hd

/-- **C163**, debug builds: the exact sum, or a panic. No sum is ever wrong. -/
theorem C163_debug (hd : c.debug = true) (h0 : 0 < n) (hw : 0 < w) (fuel : Nat) (data : List (BitVec n))
    (hlen : data.length + w < c.usize) (hfuel : data.length / w < fuel) :
    (∃ r, sliceSumSoft c fuel k w data = ok r ∧ num k.signed r = listTotal k.signed data) ∨
      sliceSumSoft c fuel k w data = Res.panic := by
  obtain ⟨t1, -⟩ := lanes_calls_total k.signed hw (Packed.splat 0 : Vector (BitVec n) w) data
  have hpad : ∃ m, padding w (Packed.splat 0) data = List.replicate m (0 : BitVec n) := by
    unfold padding
    split
    · exact ⟨0, rfl⟩
    · exact ⟨_, by rw [Packed.splat, Vector.toList_replicate, List.take_replicate]⟩
  obtain ⟨m, hm⟩ := hpad
  have hs : (Packed.splat 0 : Vector (BitVec n) w).toList = List.replicate w 0 := by
    rw [Packed.splat, Vector.toList_replicate]
  rw [hm, (zeros_value m).1] at t1
  unfold sliceSumSoft
  rw [C03_reduce_fold c fuel data (Packed.splat 0) (Packed.splat 0) () _ hw hlen hfuel]
  simp only [bind_assoc, ok_bind]
  rcases soft_fold (c := c) (k := k) h0 (calls w (Packed.splat 0) data) (Packed.splat 0) with ⟨h, ht⟩ | ⟨-, h⟩
  · have ht := ht hd
    rw [hs, (zeros_value w).1, t1] at ht
    have e := (congrArg (fun r => r >>= fun p => sumFallback c k p.1) h).trans rfl
    by_cases hj : ∀ j ≤ w, Fits k.signed n (List.sum (List.map (num k.signed) (List.take j
        ((calls w (Packed.splat 0) data).foldl (fun (acc : Vector (BitVec n) w) v => acc.zipWith (· + ·) v)
          (Packed.splat 0)).toList)))
    · left
      refine ⟨_, e.trans (C41_fallback_fits c k h0 _ hj), ?_⟩
      have hf := hj w (Nat.le_refl w)
      rw [List.take_of_length_le (by simp)] at hf
      refine (num_ofInt_fits k h0 hf).trans ?_
      show listTotal _ _ = _
      omega
    · right
      push Not at hj
      obtain ⟨j, h1, h2⟩ := hj
      exact e.trans (C41_fallback_debug c hd k h0 _ h1 h2)
  · exact .inr ((congrArg (fun r => r >>= fun p => sumFallback c k p.1) h).trans rfl)

/-- Where native vectors wrap silently, software vectors panic; sums which fit are returned. -/
example : sliceSumSoft debug64 9 .u 2 [200#8, 1#8, 100#8, 1#8] = Res.panic ∧
    sliceSum (w := 2) debug64 9 (sumFallback debug64 .u) [200#8, 1#8, 100#8, 1#8] = ok 46#8 ∧
    sliceSumSoft debug64 9 .u 2 [100#8, 1#8, 100#8, 1#8, 7#8] = ok 209#8 ∧
    sliceSumSoft release64 9 .u 2 [200#8, 1#8, 100#8, 1#8] = ok 46#8 := by
  refine ⟨?_, ?_, ?_, ?_⟩ <;> decide +kernel

end Faster
