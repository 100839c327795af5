import Verif.Props.Accumulators
import Verif.Props.DotProduct
/-
C178: sums of what an operation makes of the elements, such as sums of squares, with one and with several accumulators.
-/
namespace Faster
open Res

variable {n w : Nat} {c : Cfg} {k : Kind}

/-- `xs.simd_iter(d).simd_reduce(splat(0), |acc, v| acc + g(v)).sum()` (src/iters.rs:157-167, src/intrin/sum.rs) with the
operators of native vectors, which wrap. -/
def sumOf (c : Cfg) (fuel : Nat) (g : Vector (BitVec n) w → Res (Vector (BitVec n) w))
    (F : Vector (BitVec n) w → Res (BitVec n)) (xs : List (BitVec n)) (d : Vector (BitVec n) w) : Res (BitVec n) := do
  let (_, acc, _) ← simdReduce c fuel (simdIter xs d) (Packed.splat 0) () fun _ acc v => do
    let t ← g v
    ok (acc.zipWith (· + ·) t, ())
  F acc

/-- The same in a loop over the chunks of `unroll(amt)` (src/iters.rs:386-403) with `m` accumulators, for operations
which do not fail. -/
def sumOfAccs (c : Cfg) (fuel amt m : Nat) (g : Vector (BitVec n) w → Vector (BitVec n) w)
    (F : Vector (BitVec n) w → Res (BitVec n)) (xs : List (BitVec n)) (d : Vector (BitVec n) w) : Res (BitVec n) := do
  let (_, acc) ← unrolledAccs c fuel amt m (simdIter xs d) (fun a b => a.zipWith (· + ·) b) (Packed.splat 0) g
  F acc

/-- **C178**: an operation which is `f` in every lane and makes zeros of the default: the sum of `f x` modulo `2^n`. -/
theorem C178_one {signed : Bool} {F : Vector (BitVec n) w → Res (BitVec n)} (hF : SumOp signed F)
    {g : Vector (BitVec n) w → Res (Vector (BitVec n) w)} {f : BitVec n → BitVec n} (hg : ∀ v, g v = ok (v.map f))
    (hw : 0 < w) (fuel : Nat) (xs : List (BitVec n)) (d : Vector (BitVec n) w) (hd : d.map f = Packed.splat 0)
    (hlen : xs.length + w < c.usize) (hfuel : xs.length / w < fuel) :
    sumOf c fuel g F xs d = ok (BitVec.ofInt n (xs.map fun x => num signed (f x)).sum) := by
  have h := C71_sum hF c fuel (xs.map f) hw (by simpa using hlen) (by simpa using hfuel)
  rw [C03_reduce_foldl c fuel _ (Packed.splat 0) (Packed.splat 0) (fun (a v : Vector (BitVec n) w) => a.zipWith (· + ·) v)
      hw (by simpa using hlen) (by simpa using hfuel), ← hd, calls_map hw, List.foldl_map, List.map_map] at h
  unfold sumOf
  simp only [hg, ok_bind]
  rw [C03_reduce_foldl c fuel _ d (Packed.splat 0) (fun (a v : Vector (BitVec n) w) => a.zipWith (· + ·) (v.map f))
      hw hlen hfuel, ← hd]
  exact h

/-- **C178**: several accumulators give what one gives, for all operations and defaults. -/
theorem C178_accs (F : Vector (BitVec n) w → Res (BitVec n)) (g : Vector (BitVec n) w → Vector (BitVec n) w)
    (hw : 0 < w) (fuel amt m : Nat) (xs : List (BitVec n)) (d : Vector (BitVec n) w) (ha0 : 0 < amt) (ha : amt ≤ 8)
    (hm : amt ≤ m) (hlen : xs.length + w < c.usize) (hfuel : xs.length / w < fuel) :
    sumOfAccs c fuel amt m g F xs d = sumOf c fuel (fun v => ok (g v)) F xs d := by
  have h := C170_slice (c := c) (op := fun a b : Vector (BitVec n) w => a.zipWith (· + ·) b) (e := Packed.splat 0)
    (g := g) (by intro x y z; ext i hi; simp [BitVec.add_assoc]) (by intro x y; ext i hi; simp [BitVec.add_comm])
    (by ext i hi; simp [Packed.splat]) xs d 0 amt m fuel hw hlen (by omega) ha0 ha hm (by simpa using hfuel)
  unfold sumOfAccs sumOf simdIter
  rw [h, bind_assoc]
  rfl

/-- Specification: the sum of the squares of numbers. -/
def squareSum (signed : Bool) (xs : List (BitVec n)) : Int := (xs.map fun x => num signed x * num signed x).sum

/-- **C178**: sums of squares modulo `2^n`, with one accumulator and with several. -/
theorem C178_squares {signed : Bool} {F : Vector (BitVec n) w → Res (BitVec n)} (hF : SumOp signed F) (hw : 0 < w)
    (fuel amt m : Nat) (xs : List (BitVec n)) (ha0 : 0 < amt) (ha : amt ≤ 8) (hm : amt ≤ m)
    (hlen : xs.length + w < c.usize) (hfuel : xs.length / w < fuel) :
    sumOf c fuel (fun v => ok (v.zipWith (· * ·) v)) F xs (Packed.splat 0) =
      ok (BitVec.ofInt n (squareSum signed xs)) ∧
    sumOfAccs c fuel amt m (fun v => v.zipWith (· * ·) v) F xs (Packed.splat 0) =
      ok (BitVec.ofInt n (squareSum signed xs)) := by
  rw [C178_accs F _ hw fuel amt m xs _ ha0 ha hm hlen hfuel, and_self,
    C178_one hF (f := fun x => x * x) (by intro v; congr 1; ext1 i hi; simp) hw fuel xs _
      (by ext1 i hi; simp [Packed.splat]) hlen hfuel]
  congr 1
  unfold squareSum
  have hv (z : BitVec n) : BitVec.ofInt n (num signed z) = z := by
    cases signed <;> simp [num]
  clear hlen hfuel
  induction xs with
  | nil => rfl
  | cons x xs ih => simp only [List.map_cons, List.sum_cons, BitVec.ofInt_add, BitVec.ofInt_mul, ih, hv]

/-- **C178**: the exact sum of squares if it fits; it is the dot product of the slice with itself (C175). -/
theorem C178_exact (h0 : 0 < n) {F : Vector (BitVec n) w → Res (BitVec n)} (hF : SumOp k.signed F) (hw : 0 < w)
    (fuel amt m : Nat) (xs : List (BitVec n)) (ha0 : 0 < amt) (ha : amt ≤ 8) (hm : amt ≤ m)
    (hlen : xs.length + w < c.usize) (hfuel : xs.length / w < fuel) (hfits : Fits k.signed n (squareSum k.signed xs)) :
    squareSum k.signed xs = dotValue k.signed xs xs ∧
    ∃ r, sumOfAccs c fuel amt m (fun v => v.zipWith (· * ·) v) F xs (Packed.splat 0) = ok r ∧
      num k.signed r = squareSum k.signed xs :=
  ⟨by unfold squareSum dotValue; rw [List.zipWith_self],
    _, (C178_squares hF hw fuel amt m xs ha0 ha hm hlen hfuel).2, num_ofInt_fits k h0 hfits⟩

/-- `xs.simd_iter(d).simd_reduce(splat(0), |acc, v| acc + v * v).sum()` with versions of `+`, `*`
(src/arch/unknown/vecs.rs:181-197 for software vectors) and `sum` (src/intrin/sum.rs). -/
def sliceSquares (c : Cfg) (fuel : Nat)
    (vadd vmul : Vector (BitVec n) w → Vector (BitVec n) w → Res (Vector (BitVec n) w))
    (F : Vector (BitVec n) w → Res (BitVec n)) (xs : List (BitVec n)) (d : Vector (BitVec n) w) : Res (BitVec n) := do
  let (_, acc, _) ← simdReduce c fuel (simdIter xs d) (Packed.splat 0) () fun _ acc v => do
    let t ← vmul v v
    let s ← vadd acc t
    ok (s, ())
  F acc

/-- **C178**: for all operators, and all their panics, the sum of squares is the dot product of the slice with itself. -/
theorem C178_dot {vadd vmul : Vector (BitVec n) w → Vector (BitVec n) w → Res (Vector (BitVec n) w)}
    (F : Vector (BitVec n) w → Res (BitVec n)) (hw : 0 < w) (fuel : Nat) (xs : List (BitVec n))
    (d : Vector (BitVec n) w) (hlen : xs.length + w < c.usize) (hfuel : xs.length / w < fuel) :
    sliceSquares c fuel vadd vmul F xs d = sliceDot c fuel vadd vmul F xs xs d d := by
  have e1 : d.zipWith Prod.mk d = d.map fun x => (x, x) := by ext1 i hi; simp
  have e2 : List.zipWith Prod.mk xs xs = xs.map fun x => (x, x) := by rw [List.zipWith_self]
  have e3 (v : Vector (BitVec n) w) : (v.map fun x => (x, x)).map Prod.fst = v := by ext1 i hi; simp
  have e4 (v : Vector (BitVec n) w) : (v.map fun x => (x, x)).map Prod.snd = v := by ext1 i hi; simp
  rw [sliceDot_fold F hw fuel xs xs d d rfl hlen hfuel, e1, e2, calls_map hw, List.foldlM_map]
  unfold sliceSquares
  rw [C03_reduce_fold c fuel _ d (Packed.splat 0) () _ hw hlen hfuel]
  simp only [bind_assoc, ok_bind, e3, e4]

/-- **C178**: software vectors: the exact sum of squares or a panic in debug builds, and the sum modulo `2^n` in release
builds. -/
theorem C178_soft (h0 : 0 < n) (hw : 0 < w) (fuel : Nat) (xs : List (BitVec n)) (hlen : xs.length + w < c.usize)
    (hfuel : xs.length / w < fuel) :
    let r := sliceSquares (w := w) c fuel (Soft.binop (addInt c k) 0) (Soft.binop (mulInt c k) 0) (sumFallback c k) xs
      (Packed.splat 0)
    (c.debug = true → (∃ s, r = ok s ∧ num k.signed s = squareSum k.signed xs) ∨ r = Res.panic) ∧
    (c.debug = false → r = ok (BitVec.ofInt n (squareSum k.signed xs))) := by
  have e : squareSum k.signed xs = dotValue k.signed xs xs := by unfold squareSum dotValue; rw [List.zipWith_self]
  have hd := (C175_defaults (Packed.splat 0 : Vector (BitVec n) w)).1
  simp only [C178_dot _ hw fuel xs _ hlen hfuel, e]
  exact ⟨fun h => C175_debug h h0 hw fuel xs xs _ _ hd rfl hlen hfuel,
    fun h => C175_release h hw fuel xs xs _ _ hd rfl hlen hfuel⟩

/-- The hypotheses can be met: five numbers with two accumulators. An operation which makes something else of the
default counts the missing lanes. -/
example :
    sumOfAccs (n := 8) (w := 2) release64 9 2 2 (fun v => v.zipWith (· * ·) v) (sumFallback release64 .i)
      [1, -2, 3, -4, 5] (Packed.splat 0) = ok 55#8 ∧ squareSum true [1#8, -2, 3, -4, 5] = 55 ∧
    Fits true 8 (squareSum true [1#8, -2, 3, -4, 5]) ∧
    sumOfAccs (n := 8) (w := 2) release64 9 2 2 (fun v => v.map (· + 1)) (sumFallback release64 .i)
      [1, -2, 3, -4, 5] (Packed.splat 0) = ok 9#8 ∧
    sumOfAccs (n := 8) (w := 2) release64 9 2 2 (fun v => v.map (· + 1)) (sumFallback release64 .i)
      [1, -2, 3, -4, 5] (Packed.splat (-1)) = ok 8#8 ∧
    sliceSquares (n := 8) (w := 2) debug64 9 (Soft.binop (addInt debug64 .i) 0) (Soft.binop (mulInt debug64 .i) 0)
      (sumFallback debug64 .i) [1, -2, 3, -4, 5] (Packed.splat 0) = ok 55 ∧
    sliceSquares (n := 8) (w := 2) debug64 9 (Soft.binop (addInt debug64 .i) 0) (Soft.binop (mulInt debug64 .i) 0)
      (sumFallback debug64 .i) [1, -12] (Packed.splat 0) = Res.panic := by
  unfold Fits; decide +kernel

end Faster
