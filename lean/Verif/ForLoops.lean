import Verif.Stride
import Verif.IntTests
import Verif.Zip
/-
`for` loops over the iterators of the crate, and the unit tests of `src/stride.rs`, with the
constants of the tests as parameters.

A `for` loop calls `next` until it returns `None`; it never calls `end`.
-/
namespace Faster
open Res

section
variable {T α σ : Type} {w : Nat} [SIMDSized T] [SIMDIterable T α w]

/-- `for v in it { body }` (as in src/stride.rs:386-392, benches/usage.rs:44-48). The body may
change the variables `σ` around the loop and may panic. -/
def forVecs (c : Cfg) (body : FnMut σ (Vector α w) Unit) : (fuel : Nat) → T → σ → Res σ
  | 0, _, _ => hang
  | fuel + 1, it, st => do
    let (r, it) ← SIMDIterable.next c it
    match r with
    | none => ok st
    | some v =>
      let (_, st) ← body st v
      forVecs c body fuel it st

end

/-- `for vs in z { body }` with a zipped iterator (`Iterator for Zip`, src/zip.rs:257-273). -/
def zforVecs {Z γ σ : Type} [SIMDZippedIterator Z γ] (c : Cfg) (body : FnMut σ γ Unit) :
    (fuel : Nat) → Z → σ → Res σ
  | 0, _, _ => hang
  | fuel + 1, z, st => do
    let (r, z) ← SIMDZippedIterator.next c z
    match r with
    | none => ok st
    | some v =>
      let (_, st) ← body st v
      zforVecs c body fuel z st

section
variable {α : Type} {w : Nat} [Packable α]

/-- `scalar_load` (src/stride.rs:358-367) for the slice `x` and the indices `is` (`[0, 1]` in the
test): `a.load_scalar(i)` against `x[2 * i]`, then `b.load_scalar(i)` against `x[2 * i + 1]`. -/
def strideScalarTest [DecidableEq α] (c : Cfg) (x : List α) (d : Vector α w × Vector α w)
    (is : List Nat) : Res Unit := do
  let (a, b) := strideTwo (⟨x⟩ : Slice α w) d
  is.forM fun i => do assertSame (← SIMDArray.loadScalar c a i) (← index x (2 * i))
  is.forM fun i => do assertSame (← SIMDArray.loadScalar c b i) (← index x (2 * i + 1))

/-- `vector_load` (src/stride.rs:369-378): the same for `a.load(i).extract(0)`. -/
def strideLoadTest [DecidableEq α] (c : Cfg) (x : List α) (d : Vector α w × Vector α w)
    (is : List Nat) : Res Unit := do
  let (a, b) := strideTwo (⟨x⟩ : Slice α w) d
  is.forM fun i => do
    assertSame (← Packed.extract (← SIMDArray.load c a i) 0) (← index x (2 * i))
  is.forM fun i => do
    assertSame (← Packed.extract (← SIMDArray.load c b i) 0) (← index x (2 * i + 1))

/-- The body `assert!(vec.scalar_reduce(true, |acc, s| acc && P(s)))` (src/stride.rs:387, 391). -/
def assertAll (P : α → Bool) (_ : Unit) (v : Vector α w) : Res (Unit × Unit) := do
  assert (← Packed.scalarReduce v true fun acc s => ok (acc && P s))
  ok ((), ())

/-- `vector_iter` (src/stride.rs:380-393) for the slice `x`; `P` and `Q` are `s % 2 == 1` and
`s % 2 == 0` in the test. -/
def strideIterTest (c : Cfg) (fuel : Nat) (x : List α) (d : Vector α w × Vector α w)
    (P Q : α → Bool) : Res Unit := do
  let (a, b) := strideTwo (⟨x⟩ : Slice α w) d
  forVecs c (assertAll P) fuel a ()
  forVecs c (assertAll Q) fuel b ()

end
end Faster
