import Verif.Intrin.Merge
import Verif.Iters
/-
Slice references made by unsafe code, with their addresses: the transmuted
`PART_MASK` of `partition_mask` and the chunks of `Unrolled::next`. (The rest of
the model has no addresses.)
-/
namespace Faster
open Res

/-- An allocated object: its first address and its size in bytes. -/
structure Object where
  addr : Nat
  size : Nat
deriving DecidableEq, Repr

/-- A slice reference `&[E]`: address, number of elements, size and alignment of
the element type `E`. -/
structure SliceRef where
  addr : Nat
  len : Nat
  elem : Nat
  align : Nat
deriving DecidableEq, Repr

/-- The constant `PART_MASK: [u8; 128]` (src/arch/x86/vec_patterns.rs:20) when the
compiler places it at address `a`; every address is allowed, bytes have alignment 1. -/
def partMaskObject (a : Nat) : Object := ⟨a, 128⟩

/-- `transmute(&PART_MASK[..])` as `&[Self::Scalar]` in `partition_mask`
(src/arch/x86/vec_patterns.rs:52, src/arch/unknown/vec_patterns.rs:52): transmuting
keeps the address and the length 128 of the byte slice. `size` is
`Scalar::SIZE`, `align` the alignment of the scalar type. -/
def partMaskRef (a size align : Nat) : SliceRef := ⟨a, 128, size, align⟩

/-- Addresses which `Self::load(_, 64 / Self::Scalar::SIZE - off)`
(src/arch/x86/vec_patterns.rs:52) reads: first address and number of bytes. -/
def partMaskRead (a size width off : Nat) : Nat × Nat :=
  (a + (64 / size - off) * size, width * size)

/-- The field `scratch: [T::Vector; 8]` of an `Unrolled` value (src/iters.rs:367)
at address `a`; `size` is the size of a vector. -/
def scratchObject (a size : Nat) : Object := ⟨a, 8 * size⟩

/-- `from_raw_parts((&mut self.scratch).as_mut_ptr(), i)` (src/iters.rs:398). -/
def scratchSlice (a size align : Nat) (r : ScratchRef) : SliceRef := ⟨a, r.len, size, align⟩

end Faster
