import Verif.Iters
/-
Model of `src/stride.rs`: iterators over every n-th element.
-/
namespace Faster
open Res SIMDSized SIMDIterable SIMDIterator

/-- `struct PackedStride` (src/stride.rs:22-28). The borrowed array `&'a A` is a
value, it is never modified through the iterator. -/
structure PackedStride (A α : Type) (w : Nat) where
  iter : A
  pos : Nat
  base : Nat
  stride : Nat
  default : Vector α w
deriving Repr, DecidableEq

section PackedStride
variable {A α : Type} {w : Nat} [SIMDSized A] [SIMDArray A α w] [Packable α]

/-- The loops `for i in 0..self.width()` of `next` (src/stride.rs:37-41) and
`load_unchecked` (src/stride.rs:305-307) for lanes `i, …, i+n-1`; `idx i` is the
index expression of the loop. `replace` is the bounds-checked one. -/
def strideLoop (c : Cfg) (a : A) (idx : Nat → Res Nat) :
    (n i : Nat) → Vector α w → Res (Vector α w)
  | 0, _, ret => ok ret
  | n + 1, i, ret => do
    let j ← idx i
    let x ← SIMDArray.loadScalarUnchecked c a j
    let ret ← Packed.replace ret i x
    strideLoop c a idx n (i + 1) ret

/-- `SIMDSized for PackedStride` (src/stride.rs:322-327). -/
instance instSizedPackedStride : SIMDSized (PackedStride A α w) where
  scalarLen c s := do udiv (← scalarLen c s.iter) s.stride

/-- `SIMDIterable::advance` (src/stride.rs:341-343). -/
def PackedStride.advance (c : Cfg) (s : PackedStride A α w) (amount : Nat) :
    Res (PackedStride A α w) := do
  let d ← umul c amount s.stride
  ok { s with pos := ← uadd c s.pos d }

/-- `Iterator for PackedStride` (src/stride.rs:30-49). -/
def PackedStride.next (c : Cfg) (s : PackedStride A α w) :
    Res (Option (Vector α w) × PackedStride A α w) := do
  let e ← uadd c s.pos (← umul c s.stride w)
  let len ← scalarLen c s.iter
  if e < len then
    let ret ← strideLoop c s.iter (fun i => do uadd c s.pos (← umul c s.stride i)) w 0
      Packed.default
    let s ← PackedStride.advance c s w
    ok (some ret, s)
  else
    ok (none, s)

/-- `load_unchecked` (src/stride.rs:301-309). -/
def PackedStride.loadUnchecked (c : Cfg) (s : PackedStride A α w) (offset : Nat) :
    Res (Vector α w) := do
  if c.debug then
    let e ← uadd c offset (← umul c s.stride (← usub c w 1))
    let len ← scalarLen c s.iter
    assert (e < len)
  strideLoop c s.iter (fun i => do uadd c s.base (← umul c s.stride (← uadd c offset i))) w 0
    Packed.default

/-- `load` (src/stride.rs:295-298). -/
def PackedStride.load (c : Cfg) (s : PackedStride A α w) (offset : Nat) : Res (Vector α w) := do
  let e ← uadd c s.base (← umul c s.stride (← uadd c offset (← usub c w 1)))
  let len ← scalarLen c s.iter
  assert (e < len)
  PackedStride.loadUnchecked c s offset

/-- `SIMDArray for PackedStride` (src/stride.rs:293-320). -/
instance instArrayPackedStride : SIMDArray (PackedStride A α w) α w where
  load := PackedStride.load
  loadUnchecked := PackedStride.loadUnchecked
  loadScalar c s offset := do
    SIMDArray.loadScalar c s.iter (← uadd c s.base (← umul c offset s.stride))
  loadScalarUnchecked c s offset := do
    SIMDArray.loadScalarUnchecked c s.iter (← uadd c s.base (← umul c offset s.stride))

/-- `SIMDIterable for PackedStride` (src/stride.rs:329-349), `ExactSizeIterator`
(src/stride.rs:51-56). -/
instance instIterablePackedStride : SIMDIterable (PackedStride A α w) α w where
  next := PackedStride.next
  len c s := do udiv (← vectorLen w c s.iter) s.stride
  scalarPos c s := do udiv (← usub c s.pos s.base) s.stride
  vectorPos c s := do udiv (← usub c s.pos s.base) (← umul c s.stride w)
  advance := PackedStride.advance
  dflt s := s.default

/-- `SIMDIterator for PackedStride` by the blanket impl (src/iters.rs:525). -/
instance instIteratorPackedStride : SIMDIterator (PackedStride A α w) α w where
  end_ := blanketEnd

end PackedStride

/-- Iterator number `k` of a stride call with stride `count` (the struct literal
in src/stride.rs:122-128 and in `stride_two` … `stride_nine`, 133-280, which write
out `offset = 0, 1, …`). -/
def strideAt {A α : Type} {w : Nat} (a : A) (count k : Nat) (d : Vector α w) :
    PackedStride A α w :=
  { iter := a, pos := k, base := k, stride := count, default := d }

/-- `stride_into` (src/stride.rs:115-130) and `stride` (69-71). `get_unchecked`
on `default`; the collection is a list. -/
def strideInto {A α : Type} {w : Nat} (a : A) (count : Nat) (default : List (Vector α w)) :
    Res (List (PackedStride A α w)) := do
  assert (default.length = count)
  (List.range count).mapM fun offset => do
    ok (strideAt a count offset (← getUnchecked default offset))

/-- `stride_two` (src/stride.rs:133-150). -/
def strideTwo {A α : Type} {w : Nat} (a : A) (d : Vector α w × Vector α w) :
    PackedStride A α w × PackedStride A α w :=
  (⟨a, 0, 0, 2, d.1⟩, ⟨a, 1, 1, 2, d.2⟩)

/-- `stride_three` (src/stride.rs:153-177). -/
def strideThree {A α : Type} {w : Nat} (a : A) (d : Vector α w × Vector α w × Vector α w) :
    PackedStride A α w × PackedStride A α w × PackedStride A α w :=
  (⟨a, 0, 0, 3, d.1⟩, ⟨a, 1, 1, 3, d.2.1⟩, ⟨a, 2, 2, 3, d.2.2⟩)

/-- `stride_four` (src/stride.rs:180-211). -/
def strideFour {A α : Type} {w : Nat} (a : A)
    (d : Vector α w × Vector α w × Vector α w × Vector α w) :
    PackedStride A α w × PackedStride A α w × PackedStride A α w × PackedStride A α w :=
  (⟨a, 0, 0, 4, d.1⟩, ⟨a, 1, 1, 4, d.2.1⟩, ⟨a, 2, 2, 4, d.2.2.1⟩, ⟨a, 3, 3, 4, d.2.2.2⟩)

/-- `stride_nine` (src/stride.rs:214-280). -/
def strideNine {A α : Type} {w : Nat} (a : A)
    (d : Vector α w × Vector α w × Vector α w × Vector α w × Vector α w × Vector α w ×
      Vector α w × Vector α w × Vector α w) :
    PackedStride A α w × PackedStride A α w × PackedStride A α w × PackedStride A α w ×
      PackedStride A α w × PackedStride A α w × PackedStride A α w × PackedStride A α w ×
      PackedStride A α w :=
  (⟨a, 0, 0, 9, d.1⟩, ⟨a, 1, 1, 9, d.2.1⟩, ⟨a, 2, 2, 9, d.2.2.1⟩, ⟨a, 3, 3, 9, d.2.2.2.1⟩,
    ⟨a, 4, 4, 9, d.2.2.2.2.1⟩, ⟨a, 5, 5, 9, d.2.2.2.2.2.1⟩, ⟨a, 6, 6, 9, d.2.2.2.2.2.2.1⟩,
    ⟨a, 7, 7, 9, d.2.2.2.2.2.2.2.1⟩, ⟨a, 8, 8, 9, d.2.2.2.2.2.2.2.2⟩)

end Faster
