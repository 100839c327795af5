import Verif.Props.AbsDiff
import Verif.Props.SoftSum
import Verif.Props.SoftProduct
/-
C175: the dot product of two slices of integers.
-/
namespace Faster
open Res

variable {n w : Nat} {c : Cfg} {k : Kind}

/-- `(xs.simd_iter(dx), ys.simd_iter(dy)).zip().simd_reduce(splat(0), |acc, (u, v)| acc + u * v).sum()` with versions of
`+`, `*` (src/arch/unknown/vecs.rs:181-197 for software vectors) and `sum` (src/intrin/sum.rs). -/
def sliceDot (c : Cfg) (fuel : Nat) (vadd vmul : Vector (BitVec n) w → Vector (BitVec n) w → Res (Vector (BitVec n) w))
    (F : Vector (BitVec n) w → Res (BitVec n)) (xs ys : List (BitVec n)) (dx dy : Vector (BitVec n) w) :
    Res (BitVec n) := do
  let z ← zip c (simdIter xs dx) (simdIter ys dy, ())
  let (_, acc, _) ← zsimdReduce c fuel z (Packed.splat 0) ()
    fun _ acc (v : Vector (BitVec n) w × Vector (BitVec n) w × Unit) => do
      let t ← vmul v.1 v.2.1
      let s ← vadd acc t
      ok (s, ())
  F acc

/-- Specification: the dot product of two slices of numbers. -/
def dotValue (signed : Bool) (xs ys : List (BitVec n)) : Int :=
  (List.zipWith (fun x y => num signed x * num signed y) xs ys).sum

/-- The loop is a fold over the vectors of both slices. -/
theorem sliceDot_fold {vadd vmul : Vector (BitVec n) w → Vector (BitVec n) w → Res (Vector (BitVec n) w)}
    (F : Vector (BitVec n) w → Res (BitVec n)) (hw : 0 < w) (fuel : Nat) (xs ys : List (BitVec n))
    (dx dy : Vector (BitVec n) w) (h : xs.length = ys.length) (hlen : xs.length + w < c.usize)
    (hfuel : xs.length / w < fuel) :
    sliceDot c fuel vadd vmul F xs ys dx dy = (do
      let p ← (calls w (dx.zipWith Prod.mk dy) (List.zipWith Prod.mk xs ys)).foldlM
        (fun (p : Vector (BitVec n) w × Unit) (v : Vector (BitVec n × BitVec n) w) => (do
          let t ← vmul (v.map Prod.fst) (v.map Prod.snd)
          let s ← vadd p.1 t
          ok (s, ()) : Res (Vector (BitVec n) w × Unit))) (Packed.splat 0, ())
      F p.1) := by
  have h1 := C24_zip_reduce (c := c) (xs := xs) (ys := ys) (dx := dx) (dy := dy) fuel (Packed.splat 0) ()
    (fun _ acc (v : Vector (BitVec n) w × Vector (BitVec n) w × Unit) => (do
      let t ← vmul v.1 v.2.1
      let s ← vadd acc t
      ok (s, ()) : Res (Vector (BitVec n) w × Unit))) h hw hlen hfuel
  rw [← calls_combine hw Prod.mk dx dy h]
  have e : List.zipWith (fun u v => (u, v, ())) (calls w dx xs) (calls w dy ys) =
      (List.zipWith (fun (u v : Vector (BitVec n) w) => u.zipWith Prod.mk v) (calls w dx xs) (calls w dy ys)).map
        fun v => (v.map Prod.fst, v.map Prod.snd, ()) := by
    rw [List.map_zipWith]
    congr 1
    funext u v
    simp only [Prod.mk.injEq, and_true]
    constructor <;> (ext1 i hi; simp)
  rw [e, List.foldlM_map] at h1
  have h2 := congrArg (· >>= fun p => F p.1) h1
  simp only [bind_assoc, ok_bind] at h2
  exact h2

theorem dot_products (xs ys : List (BitVec n)) (signed : Bool) :
    BitVec.ofInt n ((List.zipWith (· * ·) xs ys).map (num signed)).sum = BitVec.ofInt n (dotValue signed xs ys) := by
  unfold dotValue
  induction xs generalizing ys with
  | nil => simp
  | cons x xs ih =>
    cases ys with
    | nil => simp
    | cons y ys =>
      have hv (z : BitVec n) : BitVec.ofInt n (num signed z) = z := by
        cases signed <;> simp [num]
      simp only [List.zipWith_cons_cons, List.map_cons, List.sum_cons, BitVec.ofInt_add, BitVec.ofInt_mul, ih, hv]

/-- **C175**: native vectors, whose operators wrap: the dot product modulo `2^n`, for every version of `sum`, if the
products of the defaults are zero. -/
theorem C175_native {signed : Bool} {F : Vector (BitVec n) w → Res (BitVec n)} (hF : SumOp signed F) (hw : 0 < w)
    (fuel : Nat) (xs ys : List (BitVec n)) (dx dy : Vector (BitVec n) w) (hd : dx.zipWith (· * ·) dy = Packed.splat 0)
    (h : xs.length = ys.length) (hlen : xs.length + w < c.usize) (hfuel : xs.length / w < fuel) :
    sliceDot c fuel (fun a b => ok (a.zipWith (· + ·) b)) (fun a b => ok (a.zipWith (· * ·) b)) F xs ys dx dy =
      ok (BitVec.ofInt n (dotValue signed xs ys)) := by
  have hl : (List.zipWith (· * ·) xs ys).length = xs.length := by simp [h]
  rw [sliceDot_fold F hw fuel xs ys dx dy h hlen hfuel, ← dot_products xs ys signed,
    ← C71_sum hF c fuel _ hw (by rw [hl]; exact hlen) (by rw [hl]; exact hfuel),
    C03_reduce_foldl c fuel _ (Packed.splat 0) (Packed.splat 0) (fun (a v : Vector (BitVec n) w) => a.zipWith (· + ·) v)
      hw (by rw [hl]; exact hlen) (by rw [hl]; exact hfuel), ← hd, ← calls_combine hw (· * ·) dx dy h,
    ← calls_combine hw Prod.mk dx dy h]
  have key : ∀ (us vs : List (Vector (BitVec n) w)) (a : Vector (BitVec n) w),
      (List.zipWith (fun (u v : Vector (BitVec n) w) => u.zipWith Prod.mk v) us vs).foldlM
        (fun (p : Vector (BitVec n) w × Unit) (v : Vector (BitVec n × BitVec n) w) => (do
          let t ← (ok ((v.map Prod.fst).zipWith (· * ·) (v.map Prod.snd)) : Res (Vector (BitVec n) w))
          let s ← (ok (p.1.zipWith (· + ·) t) : Res (Vector (BitVec n) w))
          ok (s, ()) : Res (Vector (BitVec n) w × Unit))) (a, ()) =
      ok ((List.zipWith (fun (u v : Vector (BitVec n) w) => u.zipWith (· * ·) v) us vs).foldl
        (fun a v => a.zipWith (· + ·) v) a, ()) := by
    intro us
    induction us with
    | nil => intro vs a; rfl
    | cons u us ih =>
      intro vs a
      match vs with
      | [] => rfl
      | v :: vs =>
        have e : ((u.zipWith Prod.mk v).map Prod.fst).zipWith (· * ·) ((u.zipWith Prod.mk v).map Prod.snd) =
            u.zipWith (· * ·) v := by
          ext1 i hi; simp
        simp only [ok_bind] at ih
        simp only [List.zipWith_cons_cons, List.foldlM_cons, List.foldl_cons, ok_bind, e, ih]
  rw [key]
  rfl

/-- **C175**: native vectors return the exact dot product if it fits, whatever overflows on the way. -/
theorem C175_exact (h0 : 0 < n) {F : Vector (BitVec n) w → Res (BitVec n)} (hF : SumOp k.signed F) (hw : 0 < w)
    (fuel : Nat) (xs ys : List (BitVec n)) (dx dy : Vector (BitVec n) w) (hd : dx.zipWith (· * ·) dy = Packed.splat 0)
    (h : xs.length = ys.length) (hlen : xs.length + w < c.usize) (hfuel : xs.length / w < fuel)
    (hfits : Fits k.signed n (dotValue k.signed xs ys)) :
    ∃ r, sliceDot c fuel (fun a b => ok (a.zipWith (· + ·) b)) (fun a b => ok (a.zipWith (· * ·) b)) F xs ys dx dy =
      ok r ∧ num k.signed r = dotValue k.signed xs ys :=
  ⟨_, C175_native hF hw fuel xs ys dx dy hd h hlen hfuel, num_ofInt_fits k h0 hfits⟩

/-- The products of software vectors: either all are returned, or the fold panics in a debug build. -/
theorem dot_fold (l : List (Vector (BitVec n × BitVec n) w)) : ∀ a : Vector (BitVec n) w × Unit,
    ((∀ p ∈ lanes l, mulInt c k p.1 p.2 = ok (p.1 * p.2)) ∧
      l.foldlM (fun (p : Vector (BitVec n) w × Unit) (v : Vector (BitVec n × BitVec n) w) => (do
        let t ← Soft.binop (mulInt c k) 0 (v.map Prod.fst) (v.map Prod.snd)
        let s ← Soft.binop (addInt c k) 0 p.1 t
        ok (s, ()) : Res (Vector (BitVec n) w × Unit))) a =
      (l.map (Vector.map fun p => p.1 * p.2)).foldlM (fun (p : Vector (BitVec n) w × Unit) v => (do
        let u ← Soft.binop (addInt c k) 0 p.1 v
        ok (u, ()) : Res (Vector (BitVec n) w × Unit))) a) ∨
    (c.debug = true ∧ l.foldlM (fun (p : Vector (BitVec n) w × Unit) (v : Vector (BitVec n × BitVec n) w) => (do
        let t ← Soft.binop (mulInt c k) 0 (v.map Prod.fst) (v.map Prod.snd)
        let s ← Soft.binop (addInt c k) 0 p.1 t
        ok (s, ()) : Res (Vector (BitVec n) w × Unit))) a = Res.panic) := by
  induction l with
  | nil => intro a; exact .inl ⟨by simp [lanes], rfl⟩
  | cons v l ih =>
    intro a
    rw [List.map_cons, List.foldlM_cons, List.foldlM_cons]
    rcases softMul_cases (c := c) (k := k) (v.map Prod.fst) (v.map Prod.snd) with ⟨h1, h2⟩ | ⟨hd, -, h2⟩
    · have e : (v.map Prod.fst).zipWith (· * ·) (v.map Prod.snd) = v.map fun p => p.1 * p.2 := by
        ext1 i hi; simp
      rw [e] at h2
      simp only [h2, ok_bind]
      rcases softAdd_cases (c := c) (k := k) a.1 (v.map fun p => p.1 * p.2) with ⟨-, h3⟩ | h3
      · simp only [h3, ok_bind]
        rcases ih (a.1.zipWith (· + ·) (v.map fun p => p.1 * p.2), ()) with ⟨i1, i2⟩ | i
        · refine .inl ⟨fun p hp => ?_, i2⟩
          rw [lanes_cons] at hp
          rcases List.mem_append.1 hp with hp | hp
          · obtain ⟨i, hi, rfl⟩ := List.getElem_of_mem hp
            have := h1 i (by simpa using hi)
            simpa using this
          · exact i1 p hp
        · exact .inr i
      · refine .inr ⟨?_, by simp only [h3]; rfl⟩
        rcases Bool.eq_false_or_eq_true c.debug with h' | h'
        · exact h'
        · rw [(Lifts2.binop (w := w) (0 : BitVec n) (addInt_total (c := c) (k := k))).lanes a.1
            (v.map fun p => p.1 * p.2) (a.1.zipWith (· + ·) (v.map fun p => p.1 * p.2)) fun i hi => by
              unfold addInt overflowCheck
              simp [h']] at h3
          cases h3
    · exact .inr ⟨hd, by simp only [h2]; rfl⟩

/-- **C175**: software vectors in debug builds: the exact dot product, or a panic. -/
theorem C175_debug (hdbg : c.debug = true) (h0 : 0 < n) (hw : 0 < w) (fuel : Nat) (xs ys : List (BitVec n))
    (dx dy : Vector (BitVec n) w) (hd : dx.zipWith (· * ·) dy = Packed.splat 0) (h : xs.length = ys.length)
    (hlen : xs.length + w < c.usize) (hfuel : xs.length / w < fuel) :
    (∃ r, sliceDot c fuel (Soft.binop (addInt c k) 0) (Soft.binop (mulInt c k) 0) (sumFallback c k) xs ys dx dy = ok r ∧
      num k.signed r = dotValue k.signed xs ys) ∨
    sliceDot c fuel (Soft.binop (addInt c k) 0) (Soft.binop (mulInt c k) 0) (sumFallback c k) xs ys dx dy =
      Res.panic := by
  have hl : (List.zipWith (· * ·) xs ys).length = xs.length := by simp [h]
  rw [sliceDot_fold _ hw fuel xs ys dx dy h hlen hfuel]
  rcases dot_fold (c := c) (k := k) (calls w (dx.zipWith Prod.mk dy) (List.zipWith Prod.mk xs ys))
    (Packed.splat 0, ()) with ⟨h1, h2⟩ | ⟨-, h2⟩
  · rw [h2, ← calls_map hw]
    have e1 : (dx.zipWith Prod.mk dy).map (fun p => p.1 * p.2) = Packed.splat 0 := by
      rw [← hd]; ext1 i hi; simp
    have e2 : (List.zipWith Prod.mk xs ys).map (fun p => p.1 * p.2) = List.zipWith (· * ·) xs ys := by
      rw [List.map_zipWith]
    rw [e1, e2]
    have h3 := C163_debug (k := k) hdbg h0 hw fuel (List.zipWith (· * ·) xs ys) (by rw [hl]; exact hlen)
      (by rw [hl]; exact hfuel)
    unfold sliceSumSoft at h3
    rw [C03_reduce_fold c fuel _ (Packed.splat 0) (Packed.splat 0) () _ hw (by rw [hl]; exact hlen)
      (by rw [hl]; exact hfuel)] at h3
    simp only [bind_assoc, ok_bind] at h3
    have e3 : listTotal k.signed (List.zipWith (· * ·) xs ys) = dotValue k.signed xs ys := by
      rw [← e2]
      unfold listTotal dotValue
      rw [List.map_map, List.map_zipWith]
      have e4 : List.zipWith (fun x y => num k.signed x * num k.signed y) xs ys =
          (List.zipWith Prod.mk xs ys).map fun p => num k.signed p.1 * num k.signed p.2 := by
        rw [List.map_zipWith]
      rw [e4, ← List.map_zipWith]
      congr 1
      apply List.map_congr_left
      intro p hp
      have := (mulInt_value h0 (h1 p ((mem_lanes_calls hw _ _ _).2 (.inl hp)))).2 hdbg
      simpa [num_eq] using this
    rw [e3] at h3
    exact h3
  · rw [h2]; exact .inr rfl

/-- **C175**: software vectors in release builds: the dot product modulo `2^n`. -/
theorem C175_release (hrel : c.debug = false) (hw : 0 < w) (fuel : Nat) (xs ys : List (BitVec n))
    (dx dy : Vector (BitVec n) w) (hd : dx.zipWith (· * ·) dy = Packed.splat 0) (h : xs.length = ys.length)
    (hlen : xs.length + w < c.usize) (hfuel : xs.length / w < fuel) :
    sliceDot c fuel (Soft.binop (addInt c k) 0) (Soft.binop (mulInt c k) 0) (sumFallback c k) xs ys dx dy =
      ok (BitVec.ofInt n (dotValue k.signed xs ys)) := by
  rw [← C175_native (signed := k.signed) (fun v => C41_fallback_release c hrel k v) hw fuel xs ys dx dy hd h hlen hfuel]
  have ha : (Soft.binop (addInt c k) 0 : Vector (BitVec n) w → _ → _) = fun a b => ok (a.zipWith (· + ·) b) := by
    funext a b
    refine (Lifts2.binop (w := w) (0 : BitVec n) (addInt_total (c := c) (k := k))).lanes a b _ fun i hi => ?_
    unfold addInt overflowCheck
    simp [hrel]
  have hm : (Soft.binop (mulInt c k) 0 : Vector (BitVec n) w → _ → _) = fun a b => ok (a.zipWith (· * ·) b) := by
    funext a b
    refine (Lifts2.binop (w := w) (0 : BitVec n) (mulInt_total (c := c) (k := k))).lanes a b _ fun i hi => ?_
    unfold mulInt overflowCheck
    simp [hrel]
  rw [ha, hm]

/-- **C175**: one default of zero is enough, and the order of the slices does not matter. -/
theorem C175_defaults (d : Vector (BitVec n) w) : (Packed.splat 0).zipWith (· * ·) d = Packed.splat 0 ∧
    d.zipWith (· * ·) (Packed.splat 0) = Packed.splat 0 := by
  constructor <;> (ext1 i hi; simp [Packed.splat])

theorem C175_comm (signed : Bool) (xs ys : List (BitVec n)) : dotValue signed xs ys = dotValue signed ys xs := by
  unfold dotValue
  rw [List.zipWith_comm]
  simp only [Int.mul_comm]

/-- Defaults whose product is not zero are counted: two missing lanes of 2 times 3. -/
theorem C175_counts_defaults :
    sliceDot (n := 8) (w := 4) debug64 9 (Soft.binop (addInt debug64 .u) 0) (Soft.binop (mulInt debug64 .u) 0)
      (sumFallback debug64 .u) [1, 2, 3, 4, 5, 6] [1, 1, 1, 1, 1, 2] (Packed.splat 2) (Packed.splat 3) = ok 39#8 ∧
    dotValue false [1#8, 2, 3, 4, 5, 6] [1, 1, 1, 1, 1, 2] = 27 := by decide +kernel

/-- The hypotheses can be met. Where native vectors wrap, software vectors panic in a debug build, for products as for
sums. -/
example :
    sliceDot (n := 8) (w := 4) debug64 9 (Soft.binop (addInt debug64 .i) 0) (Soft.binop (mulInt debug64 .i) 0)
      (sumFallback debug64 .i) [1, -2, 3, 4, 5, 6] [7, 8, 9, -10, 11, 2] (Packed.splat 0) (Packed.splat 1) = ok 45#8 ∧
    sliceDot (n := 8) (w := 4) debug64 9 (Soft.binop (addInt debug64 .i) 0) (Soft.binop (mulInt debug64 .i) 0)
      (sumFallback debug64 .i) [16] [16] (Packed.splat 0) (Packed.splat 0) = Res.panic ∧
    sliceDot (n := 8) (w := 4) debug64 9 (fun a b => ok (a.zipWith (· + ·) b)) (fun a b => ok (a.zipWith (· * ·) b))
      (sumFallback debug64 .i) [16] [16] (Packed.splat 0) (Packed.splat 0) = ok 0#8 ∧
    sliceDot (n := 8) (w := 1) release64 9 (fun a b => ok (a.zipWith (· + ·) b)) (fun a b => ok (a.zipWith (· * ·) b))
      (sumFallback release64 .i) [16, -16, 3] [16, 16, 2] (Packed.splat 0) (Packed.splat 0) = ok 6#8 := by
  decide +kernel

end Faster
