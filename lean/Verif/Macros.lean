import Verif.Zip
import Verif.Stride
import Verif.MacroTables
import Verif.Intrin.PatternTables
/-
The macros which write out tuples (`impl_iter_zip!`, `tuplify!`, the struct literals of
`stride_two` … `stride_nine`) expanded with the arguments found in the source. A tuple whose
iterators have the same type is a list here.
-/
namespace Faster
open Res SIMDSized SIMDIterable SIMDIterator

variable {T α : Type} {w : Nat}

/-- `self.iters.$n`. (A field which does not exist is a compile error; the model uses `panic`.) -/
def field (iters : List T) (n : Nat) : Res T :=
  match iters[n]? with
  | some t => ok t
  | none => panic

section
variable [SIMDSized T] [SIMDIterator T α w] [SIMDArray T α w]

/-- `self.0.len() != self.$n.len() || …` (src/zip.rs:228). -/
def ZipArm.lenDiffers (c : Cfg) (iters : List T) : List Nat → Res Bool
  | [] => ok false
  | n :: ns => do
    let a ← SIMDIterable.len c (← field iters 0)
    let b ← SIMDIterable.len c (← field iters n)
    if a ≠ b then ok true else ZipArm.lenDiffers c iters ns

/-- `zip` (src/zip.rs:227-232) as expanded by one invocation. -/
def ZipArm.zip (arm : ZipArm) (c : Cfg) (iters : List T) : Res (List T) := do
  if ← ZipArm.lenDiffers c iters arm.fields then panic else ok iters

/-- `next` (src/zip.rs:248-253). -/
def ZipArm.next (arm : ZipArm) (c : Cfg) (iters : List T) : Res (Option (List (Vector α w)) × List T) := do
  let pos ← SIMDIterable.scalarPos c (← field iters 0)
  let (r, first) ← SIMDIterable.next c (← field iters 0)
  let iters := iters.set 0 first
  match r with
  | some v =>
    let vs ← arm.fields.mapM fun n => do nextUnchecked c (← field iters n) pos
    ok (some (v :: vs), iters)
  | none => ok (none, iters)

/-- `end` (src/zip.rs:275-281). -/
def ZipArm.end_ (arm : ZipArm) (c : Cfg) (iters : List T) :
    Res (Option (List (Vector α w) × Nat) × List T) := do
  let pos ← SIMDIterable.scalarPos c (← field iters 0)
  let (r, first) ← SIMDIterator.end_ c (← field iters 0)
  let iters := iters.set 0 first
  match r with
  | some (v, n) =>
    let vs ← arm.fields.mapM fun k => do endUnchecked c (← field iters k) pos n
    ok (some (v :: vs, n), iters)
  | none => ok (none, iters)

/-- `default` (src/zip.rs:298-300). -/
def ZipArm.default (arm : ZipArm) (iters : List T) : Res (List (Vector α w)) := do
  let v ← field iters 0
  let vs ← arm.fields.mapM fun n => do ok (dflt (← field iters n))
  ok (dflt v :: vs)

end

/-- `tuplify!(n, x)` (src/zip.rs:25-38): the arm with number `n`. -/
def tuplify (n : Nat) (x : α) : Option (List α) :=
  (tuplifyArms.lookup n).map fun k => List.replicate k x

/-- The struct literals of `stride_two` … `stride_nine` (src/stride.rs:133-280), with the tuple of
defaults as a list. -/
def stridesOf {A : Type} (lits : List StrideLit) (a : A) (d : List (Vector α w)) :
    Res (List (PackedStride A α w)) :=
  lits.mapM fun l => do
    ok { iter := a, pos := l.pos, base := l.base, stride := l.stride, default := ← field d l.dflt }

/-- Bytes per element and number of lanes of a vector type of packed_simd or
src/arch/unknown/vecs.rs. -/
def shape (vec : String) : Option (Nat × Nat) :=
  (patternRows.find? fun r => r.vec = vec).map fun r => (r.size, r.width)

/-- The element type in the name of a vector type: `u8` of `u8x16`. -/
def elementOf (vec : String) : List Char := vec.toList.takeWhile (· ≠ 'x')

/-- The type to which `be_$name` transmutes in an implementation (src/intrin/transmute.rs:40-98):
the associated type, looked up among the parameters of the macro. -/
def TransmuteArm.target (arm : TransmuteArm) (name : String) : Option String := do
  let (_, ret, to) ← transmuteFns.find? fun f => f.1 = name
  if ret = to then
    let param ← transmuteTypes.lookup to
    (transmuteParams.zip arm.results).lookup param
  else none

end Faster
