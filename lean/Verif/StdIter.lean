import Verif.Zip
import Verif.Stride
/-
The provided methods of the standard library's `Iterator` and `ExactSizeIterator` which the
iterators of the crate inherit, and the lengths of the standard adapters around them.

The implementations of `Iterator` (src/iters.rs:237-257, 340-350, 382-400, 463-479, 614-622;
src/stride.rs:30-49; src/stride_zip.rs:80-103; src/zip.rs:243-254, 305-313) define `next` only, so
`size_hint`, `count`, `nth`, `last` and `collect` are those of `core::iter::Iterator`, as documented
there. `len` is defined by the crate (src/iters.rs:280-285, 456-461, 624-629; src/stride.rs:51-56;
src/stride_zip.rs:46-51; src/zip.rs:235-241, 315-321).
-/
namespace Faster
open Res

/-! ### Provided methods, for any `next` -/

section
variable {I A : Type} (next : I → Res (Option A × I))

/-- `Iterator::count`: calls `next` until it returns `None`. -/
def stdCount : (fuel : Nat) → I → Nat → Res Nat
  | 0, _, _ => hang
  | fuel + 1, it, n => do
    let (r, it) ← next it
    match r with
    | none => ok n
    | some _ => stdCount fuel it (n + 1)

/-- `Iterator::collect` into a `Vec`, and `Extend::extend` of one. The lower bound of `size_hint` is
only used to reserve memory. -/
def stdCollect : (fuel : Nat) → I → List A → Res (List A)
  | 0, _, _ => hang
  | fuel + 1, it, out => do
    let (r, it) ← next it
    match r with
    | none => ok out
    | some v => stdCollect fuel it (out ++ [v])

/-- `Iterator::last`. -/
def stdLast : (fuel : Nat) → I → Option A → Res (Option A)
  | 0, _, _ => hang
  | fuel + 1, it, v => do
    let (r, it) ← next it
    match r with
    | none => ok v
    | some v => stdLast fuel it (some v)

/-- `Iterator::nth`: skips `n` elements. Returns the next one, `None` at the end, and the iterator,
which is still owned by the caller. -/
def stdNth : Nat → I → Res (Option A × I)
  | 0, it => next it
  | n + 1, it => do
    let (r, it) ← next it
    match r with
    | none => ok (none, it)
    | some _ => stdNth n it

end

/-! ### Sizes -/

/-- `Iterator::size_hint`, which no iterator of the crate overrides: nothing is known. -/
def sizeHint {I : Type} (_ : I) : Nat × Option Nat := (0, none)

/-- `ExactSizeIterator::len`, as provided:
`let (lower, upper) = self.size_hint(); assert_eq!(upper, Some(lower)); lower`. -/
def hintLen (h : Nat × Option Nat) : Res Nat :=
  if h.2 = some h.1 then ok h.1 else panic

/-- `size_hint` of `take(n)`. -/
def takeHint (n : Nat) (h : Nat × Option Nat) : Nat × Option Nat :=
  (min h.1 n, some (match h.2 with | some x => min x n | none => n))

/-- `size_hint` of `skip(n)`. -/
def skipHint (n : Nat) (h : Nat × Option Nat) : Nat × Option Nat :=
  (h.1 - n, h.2.map fun x => x - n)

/-- `size_hint` of `peekable()` before a call of `peek`. -/
def peekHint (h : Nat × Option Nat) : Nat × Option Nat := h

/-- `size_hint` of the standard library's `zip`. -/
def zipHint (a b : Nat × Option Nat) : Nat × Option Nat :=
  (min a.1 b.1,
    match a.2, b.2 with
    | some x, some y => some (min x y)
    | some x, none => some x
    | none, some y => some y
    | none, none => none)

end Faster
