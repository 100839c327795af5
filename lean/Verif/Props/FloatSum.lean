import Verif.Intrin.Sum
import Verif.Props.Vec
/-
Sums of float vectors (C63).
-/
namespace Faster
open Res

variable {n w : Nat}

/-- An order of additions: a binary tree whose leaves are lane numbers, or the
constant zero. -/
inductive Plan
  | zero
  | lane (i : Nat)
  | add (l r : Plan)

/-- The lanes added, from left to right. -/
def Plan.lanes : Plan → List Nat
  | .zero => []
  | .lane i => [i]
  | .add l r => l.lanes ++ r.lanes

/-- The result of the additions `f` in this order. -/
def Plan.eval {α : Type} (f : α → α → α) (zero : α) (v : Nat → α) : Plan → α
  | .zero => zero
  | .lane i => v i
  | .add l r => f (l.eval f zero v) (r.eval f zero v)

/-- Number of additions that depend on one another. -/
def Plan.depth : Plan → Nat
  | .add l r => max l.depth r.depth + 1
  | _ => 0

/-- A summation routine for `w` lanes follows the plan `p`: for every meaning of
float addition and every vector its result is that of `p`. -/
def Follows (sum : (BitVec n → BitVec n → BitVec n) → Vector (BitVec n) w → Res (BitVec n))
    (zero : BitVec n) (p : Plan) : Prop :=
  ∀ f v, sum f v = ok (p.eval f zero fun i => v[i]?.getD zero)

/-- `((0 + v0) + v1) + …` for the first `k` lanes. -/
def seqPlan : Nat → Plan
  | 0 => .zero
  | k + 1 => .add (seqPlan k) (.lane k)

theorem seqPlan_lanes (k : Nat) : (seqPlan k).lanes = List.range k := by
  induction k with
  | zero => rfl
  | succ k ih => simp [seqPlan, Plan.lanes, ih, List.range_succ]

/-- C63, fallback: the lanes are added to zero one after the other, in order, each
exactly once; it never panics. -/
theorem C63_fallback (zero : BitVec n) :
    Follows (w := w) (fun f v => sumFallbackF f zero v) zero (seqPlan w) ∧
    (seqPlan w).lanes = List.range w := by
  refine ⟨fun f v => ?_, seqPlan_lanes w⟩
  show Packed.scalarReduce v zero _ = _
  rw [C53_scalar_reduce]
  have key : ∀ k, k ≤ w → (v.toList.take k).foldlM (fun acc s => ok (f acc s)) zero =
      ok ((seqPlan k).eval f zero fun i => v[i]?.getD zero) := by
    intro k
    induction k with
    | zero => intro _; rfl
    | succ k ih =>
      intro hk
      have hl : k < v.toList.length := by simp; omega
      rw [List.take_succ_eq_append_getElem hl, List.foldlM_append, ih (by omega)]
      simp [seqPlan, Plan.eval, show k < w by omega]
  have := key w (Nat.le_refl w)
  rwa [List.take_of_length_le (by simp)] at this

/-- C63, SSE3 f32x4: `(v0 + v1) + (v2 + v3)`. -/
theorem C63_f32x4 (zero : BitVec 32) :
    let p := Plan.add (.add (.lane 0) (.lane 1)) (.add (.lane 2) (.lane 3))
    Follows sumF32x4 zero p ∧ p.lanes = List.range 4 := by
  refine ⟨fun f v => ?_, rfl⟩
  simp [sumF32x4, X86.horizontal, X86.lane, Packed.extract, Plan.eval]

/-- C63, SSE3 f64x2: `v0 + v1`. -/
theorem C63_f64x2 (zero : BitVec 64) :
    let p := Plan.add (.lane 0) (.lane 1)
    Follows sumF64x2 zero p ∧ p.lanes = List.range 2 := by
  refine ⟨fun f v => ?_, rfl⟩
  simp [sumF64x2, X86.horizontal, X86.lane, Packed.extract, Plan.eval]

/-- C63, AVX f32x8: `((v0 + v1) + (v2 + v3)) + ((v4 + v5) + (v6 + v7))`. -/
theorem C63_f32x8 (zero : BitVec 32) :
    let p := Plan.add (.add (.add (.lane 0) (.lane 1)) (.add (.lane 2) (.lane 3)))
      (.add (.add (.lane 4) (.lane 5)) (.add (.lane 6) (.lane 7)))
    Follows sumF32x8 zero p ∧ p.lanes = List.range 8 := by
  refine ⟨fun f v => ?_, rfl⟩
  simp [sumF32x8, X86.horizontal, X86.lane, Packed.extract, Plan.eval]

/-- C63, AVX f64x4: `(v0 + v1) + (v2 + v3)`. -/
theorem C63_f64x4 (zero : BitVec 64) :
    let p := Plan.add (.add (.lane 0) (.lane 1)) (.add (.lane 2) (.lane 3))
    Follows sumF64x4 zero p ∧ p.lanes = List.range 4 := by
  refine ⟨fun f v => ?_, rfl⟩
  simp [sumF64x4, X86.horizontal, X86.lane, Packed.extract, Plan.eval]

/-- Every addition made by a plan is exact with respect to the values `val`. -/
def Plan.Exact {α : Type} (f : α → α → α) (zero : α) (v : Nat → α) (val : α → Int) : Plan → Prop
  | .add l r => l.Exact f zero v val ∧ r.Exact f zero v val ∧
      val (f (l.eval f zero v) (r.eval f zero v)) = val (l.eval f zero v) + val (r.eval f zero v)
  | _ => True

/-- C63: whenever no addition rounds, any two plans for the same lanes give the same
value, the exact sum (so optimized and fallback sums agree on such vectors). -/
theorem C63_exact {α : Type} (f : α → α → α) (zero : α) (v : Nat → α) (val : α → Int)
    (hz : val zero = 0) (p : Plan) (h : p.Exact f zero v val) :
    val (p.eval f zero v) = (p.lanes.map fun i => val (v i)).sum := by
  induction p with
  | zero => simpa [Plan.eval, Plan.lanes] using hz
  | lane i => simp [Plan.eval, Plan.lanes]
  | add l r ihl ihr =>
    obtain ⟨h1, h2, h3⟩ := h
    simp [Plan.eval, Plan.lanes, h3, ihl h1, ihr h2]

example : sumF32x4 (fun a b => a + b) #v[1#32, 2#32, 3#32, 4#32] = ok 10#32 := by decide +kernel
/-- The order matters if additions round: subtraction as a stand-in. -/
example : sumF32x4 (fun a b => a - b) #v[9#32, 2#32, 4#32, 1#32] = ok 4#32 ∧
    sumFallbackF (fun a b => a - b) 0#32 #v[9#32, 2#32, 4#32, 1#32] = ok (-16#32) := by decide +kernel

end Faster
