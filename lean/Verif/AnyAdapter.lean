import Verif.Iters
/-
`SIMDAdapter` around an arbitrary implementation of the safe trait
`ExactSizeIterator`: the wrapped iterator is any state machine. It may report a
wrong length, return scalars after `None`, panic, or never end.
`Verif/Iters.lean` has the adapter around a well-behaved iterator, which is the
instance `List α` of this one (`C134_model`).
-/
namespace Faster
open Res SIMDSized

/-- An implementation of `Iterator` and `ExactSizeIterator` with items `α`
(bound `I : ExactSizeIterator<Item = V::Scalar>`, src/iters.rs:225). Both
methods may fail; nothing relates their answers. -/
class ScalarIter (ρ : Type) (α : outParam Type) where
  next : ρ → Res (Option α × ρ)
  len : ρ → Res Nat

/-- An iterator which produces the elements of a list and reports its length. -/
instance instScalarIterList {α : Type} : ScalarIter (List α) α where
  next
    | [] => ok (none, [])
    | x :: l => ok (some x, l)
  len l := ok l.length

/-- `struct SIMDAdapter` (src/iters.rs:225-230). -/
structure AnyAdapter (ρ α : Type) (w : Nat) where
  iter : ρ
  scratch : Vector α w
  default : Vector α w
  position : Nat
deriving Repr, DecidableEq

section AnyAdapter
variable {ρ α : Type} {w : Nat} [ScalarIter ρ α]

/-- `SIMDSized for SIMDAdapter` (src/iters.rs:287-292). -/
instance instSizedAnyAdapter : SIMDSized (AnyAdapter ρ α w) where
  scalarLen _ a := ScalarIter.len a.iter

/-- `SIMDAdapter::advance` (src/iters.rs:301-303). -/
def AnyAdapter.advance (c : Cfg) (a : AnyAdapter ρ α w) (amount : Nat) : Res (AnyAdapter ρ α w) := do
  ok { a with position := ← uadd c a.position amount }

/-- Loop of `SIMDAdapter::next` (src/iters.rs:245-249) for
`offset, …, offset+n-1`. -/
def AnyAdapter.nextLoop (c : Cfg) : (n offset : Nat) → AnyAdapter ρ α w → Res (AnyAdapter ρ α w)
  | 0, _, a => ok a
  | n + 1, offset, a => do
    let (r, iter) ← ScalarIter.next a.iter
    match r with
    | none => panic  -- `unwrap` of `None`
    | some x =>
      let scratch ← Packed.replaceUnchecked c a.scratch offset x
      AnyAdapter.nextLoop c n (offset + 1) { a with iter := iter, scratch := scratch }

/-- `Iterator for SIMDAdapter` (src/iters.rs:241-256). -/
def AnyAdapter.next (c : Cfg) (a : AnyAdapter ρ α w) :
    Res (Option (Vector α w) × AnyAdapter ρ α w) := do
  let e ← uadd c a.position w
  let len ← scalarLen c a
  if e ≤ len then
    let a ← AnyAdapter.nextLoop c w 0 a
    let a ← AnyAdapter.advance c a w
    ok (some a.scratch, a)
  else ok (none, a)

/-- `SIMDIterable for SIMDAdapter` (src/iters.rs:294-309), `ExactSizeIterator`
(280-285). -/
instance instIterableAnyAdapter : SIMDIterable (AnyAdapter ρ α w) α w where
  next := AnyAdapter.next
  len _ a := do udiv (← ScalarIter.len a.iter) w
  scalarPos _ a := ok a.position
  advance := AnyAdapter.advance
  dflt a := a.default

/-- Loop of `SIMDAdapter::end` (src/iters.rs:266-271): `while let Some(item)`. -/
def AnyAdapter.endLoop (c : Cfg) : (fuel : Nat) → ρ → Nat → Vector α w → Res (ρ × Vector α w × Nat)
  | 0, _, _, _ => hang
  | fuel + 1, iter, offset, scratch => do
    let (r, iter) ← ScalarIter.next iter
    match r with
    | none => ok (iter, scratch, offset)
    | some item =>
      let scratch ← Packed.replaceUnchecked c scratch offset item
      let offset ← usub c offset 1
      AnyAdapter.endLoop c fuel iter offset scratch

/-- `SIMDIterator for SIMDAdapter` (src/iters.rs:259-278), with fuel for the
loop. -/
def AnyAdapter.endFuel (c : Cfg) (fuel : Nat) (a : AnyAdapter ρ α w) :
    Res (Option (Vector α w × Nat) × AnyAdapter ρ α w) := do
  let len ← scalarLen c a
  if a.position < len then
    let (iter, scratch, offset) ← AnyAdapter.endLoop c fuel a.iter (← usub c w 1) a.default
    let a := { a with iter := iter, scratch := scratch }
    let a ← finalize c a
    ok (some (a.scratch, offset), a)
  else ok (none, a)

/-- `end`. The loop runs at most `w + 1` times, whatever the wrapped iterator
does (`C134_end_stops`). -/
instance instIteratorAnyAdapter : SIMDIterator (AnyAdapter ρ α w) α w where
  end_ c a := AnyAdapter.endFuel c (w + 1) a

end AnyAdapter

end Faster
