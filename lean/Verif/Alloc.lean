import Verif.Iters
/-
`scalar_collect` and `scalar_collect_all` with the limit on allocations. The
definitions of `Iters.lean` let every `Vec::with_capacity` succeed; here it panics
when the bytes asked for exceed `isize::MAX`, as it does in Rust. (That the
allocator runs out of memory earlier is still not modelled: it aborts.)
-/
namespace Faster
open Res

/-- `isize::MAX`. -/
def isizeMax (c : Cfg) : Nat := c.usize / 2 - 1

/-- The check of `Vec::with_capacity(n)` for elements of `size` bytes
("capacity overflow"). -/
def capacityCheck (c : Cfg) (size n : Nat) : Res Unit := assert (n * size ≤ isizeMax c)

section
variable {I α : Type} {w : Nat} [SIMDSized I] [SIMDIterator I α w] [Packable α]

/-- `IntoScalar::scalar_collect` (src/iters.rs:704-734): the allocation of line 705
first, then everything as in `scalarCollect`. -/
def scalarCollectAlloc (c : Cfg) (fuel : Nat) (it : I) : Res (I × List (Option α)) := do
  let cap ← umul c (← uadd c (← SIMDIterable.len c it) 1) w
  capacityCheck c (Packable.size α) cap
  scalarCollect c fuel it

/-- `IntoScalar::scalar_collect_all` (src/iters.rs:769-777), the same. -/
def scalarCollectAllAlloc (c : Cfg) (fuel : Nat) (it : I) : Res (I × List (Option α)) := do
  let cap ← umul c (← uadd c (← SIMDIterable.len c it) 1) w
  capacityCheck c (Packable.size α) cap
  scalarCollectAll c fuel it

end

end Faster
