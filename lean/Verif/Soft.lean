import Verif.Intrin.VecTables
import Verif.Packed
import Verif.Intrin.Bits
/-
Vectors for targets without SIMD: src/arch/unknown/vecs.rs. A vector is the
array `data: [$el; $sz]`, here `Vector α w`.
-/
namespace Faster
open Res

namespace Soft
variable {α β : Type} {w : Nat}

/-- `copy_nonoverlapping(s.as_ptr(), &mut x, size_of::<$vec>())`: reads `w`
elements from the start of `s`. -/
def copyFrom (s : List α) : Res (Vector α w) :=
  if h : w ≤ s.length then ok ⟨(s.take w).toArray, by simp [Nat.min_eq_left h]⟩ else ub

/-- `$vec::load_unchecked` (src/arch/unknown/vecs.rs:136-143). The slice
expression `slice[offset..]` is bounds checked. -/
def loadUnchecked (slice : List α) (offset : Nat) : Res (Vector α w) := do
  let s ← sliceFrom slice offset
  copyFrom s

/-- `$vec::load` (src/arch/unknown/vecs.rs:124-127). -/
def load (slice : List α) (offset : Nat) : Res (Vector α w) := do
  assert (slice.length ≥ w)
  loadUnchecked slice offset

/-- `$vec::load_unaligned` (src/arch/unknown/vecs.rs:130-133). -/
def loadUnaligned (slice : List α) : Res (Vector α w) := do
  assert (slice.length ≥ w)
  loadUnchecked slice 0

/-- `$vec::store_unchecked` (src/arch/unknown/vecs.rs:98-103). -/
def storeUnchecked (v : Vector α w) (slice : List α) (offset : Nat) : Res (List α) := do
  let s ← sliceFrom slice offset
  if w ≤ s.length then ok (splice slice offset v.toList) else ub

/-- `$vec::store` (src/arch/unknown/vecs.rs:86-89). -/
def store (v : Vector α w) (slice : List α) (offset : Nat) : Res (List α) := do
  assert (slice.length ≥ w)
  storeUnchecked v slice offset

/-- `$vec::store_unaligned` (src/arch/unknown/vecs.rs:92-95). -/
def storeUnaligned (v : Vector α w) (slice : List α) : Res (List α) := do
  assert (slice.length ≥ w)
  storeUnchecked v slice 0

/-- `$vec::new` (src/arch/unknown/vecs.rs:47-50) of a row: the array of its
parameters in the order of the macro's list; `arg` gives the value of parameter
`$elname`. -/
def new (row : SoftRow) (arg : Nat → α) : List α := row.params.map arg

/-- `$vec::len` (src/arch/unknown/vecs.rs:52-55) of a row. -/
def len (row : SoftRow) : Nat := row.width

/-- `$vec::splat` (src/arch/unknown/vecs.rs:57-60). -/
def splat (x : α) : Vector α w := Vector.replicate w x

/-- `$vec::store_aligned_unchecked` and `store_unaligned_unchecked`
(src/arch/unknown/vecs.rs:105-121). -/
def storeUnchecked0 (v : Vector α w) (slice : List α) : Res (List α) :=
  if w ≤ slice.length then ok (splice slice 0 v.toList) else ub

/-- `$vec::load_aligned_unchecked` and `load_unaligned_unchecked`
(src/arch/unknown/vecs.rs:146-164). -/
def loadUnchecked0 (slice : List α) : Res (Vector α w) := copyFrom slice

/-- `From` between integer vectors of one size (`impl_from!`,
src/arch/unknown/vecs.rs:169-180): a `transmute`. -/
def convert {m n w' : Nat} (v : Vector (BitVec m) w) : Vector (BitVec n) w' := reinterpret v

/-- `self.data[i]` (src/arch/unknown/vecs.rs:62-71: `extract` and
`extract_unchecked` alike). -/
def extract (v : Vector α w) (i : Nat) : Res α := if h : i < w then ok v[i] else panic

/-- `self.data[i] = x` (src/arch/unknown/vecs.rs:73-83: `replace` and
`replace_unchecked` alike). -/
def replace (v : Vector α w) (i : Nat) (x : α) : Res (Vector α w) :=
  if h : i < w then ok (v.set i x) else panic

/-- `PartialEq::eq` (src/arch/unknown/vecs.rs:25-30): fold over zipped lanes;
`beq` is the scalar `==`. -/
def eq (beq : α → α → Bool) (a b : Vector α w) : Bool :=
  (a.toList.zip b.toList).foldl (fun acc p => acc && beq p.1 p.2) true

/-- Loop of `impl_ops!` (src/arch/unknown/vecs.rs:189-191) over the remaining
enumerated pairs. -/
def opLoop (op : α → α → Res α) : List (Nat × α × α) → Vector α w → Res (Vector α w)
  | [], ret => ok ret
  | (i, x, y) :: rest, ret => do
    let z ← op x y
    let ret ← replace ret i z
    opLoop op rest ret

/-- Operators `+ - * / % << >> & | ^` of `impl_ops!` (src/arch/unknown/vecs.rs:181-197);
`op` is the scalar operator (which may panic), `zero` is `0 as $el`. -/
def binop (op : α → α → Res α) (zero : α) (a b : Vector α w) : Res (Vector α w) :=
  opLoop op ((List.range w).zip (a.toList.zip b.toList)) (Vector.replicate w zero)

/-- Loop of `impl_assignops!` (src/arch/unknown/vecs.rs:205-207). -/
def assignLoop (op : α → α → Res α) : List (Nat × α) → Vector α w → Res (Vector α w)
  | [], self => ok self
  | (i, y) :: rest, self => do
    let x ← extract self i
    let z ← op x y
    let self ← replace self i z
    assignLoop op rest self

/-- Operators `+=`, … of `impl_assignops!` (src/arch/unknown/vecs.rs:200-212); the
outcome is the final `*self`. -/
def assignop (op : α → α → Res α) (a b : Vector α w) : Res (Vector α w) :=
  assignLoop op ((List.range w).zip b.toList) a

/-- Loop of `impl_cast!` (src/arch/unknown/vecs.rs:220-222). -/
def castLoop (conv : α → β) : List (Nat × α) → Vector β w → Res (Vector β w)
  | [], ret => ok ret
  | (i, x) :: rest, ret => do
    let ret ← replace ret i (conv x)
    castLoop conv rest ret

/-- `as_…` casts of `impl_cast!` (src/arch/unknown/vecs.rs:214-227): `w'` lanes of
the argument type, `w` of the result type; `conv` is the scalar `as`. -/
def cast {w' : Nat} (conv : α → β) (zero : β) (a : Vector α w') : Res (Vector β w) :=
  castLoop conv ((List.range w').zip a.toList) (Vector.replicate w zero)

/-- The operator of trait `t` for the vector type of a row of `softOps`; `scalar`
gives the meaning of the scalar operators. -/
def traitOp (scalar : Oper → α → α → Res α) (row : SoftOpRow) (t : Oper) (zero : α)
    (a b : Vector α w) : Option (Res (Vector α w)) :=
  (row.ops.lookup t).map fun o => binop (scalar o) zero a b

/-- The assignment operator of trait `t` for a row of `softAssignOps`. -/
def traitAssign (scalar : Oper → α → α → Res α) (row : SoftOpRow) (t : Oper)
    (a b : Vector α w) : Option (Res (Vector α w)) :=
  (row.ops.lookup t).map fun o => assignop (scalar o) a b

end Soft
end Faster
