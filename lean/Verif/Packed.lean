import Verif.Prim
/-
The `Packed` trait: `src/vecs.rs`, and the generic (fallback) merge of
`src/intrin/merge.rs`. A SIMD vector of `w` lanes is a `Vector α w`.
-/
namespace Faster
open Res

/-- `trait Packable` (src/vecs.rs:77-80): `SIZE` is the size of the scalar in
bytes, `zero` is `$el::default()` as used by `Packed::default`
(src/vecs.rs:170-172). The associated type `Vector` is represented by the
width parameter `w` of the iterator types. -/
class Packable (α : Type) where
  size : Nat
  zero : α

/-- Machine words of `n` bits: `u8`…`u64`, `i8`…`i64` and the bit patterns of
`f32`, `f64` (`impl Packable` in `impl_packed!`, src/vecs.rs:86-90, with `SIZE`
the size in bytes; all have default 0). -/
instance (n : Nat) : Packable (BitVec n) where
  size := n / 8
  zero := 0#n

namespace Packed
variable {α : Type} {w : Nat}

/-- `$vec::from_slice_unaligned_unchecked(s)` (packed_simd): reads the first
`w` elements of `s`. -/
def fromSliceUnchecked (s : List α) : Res (Vector α w) :=
  if h : w ≤ s.length then
    ok ⟨(s.take w).toArray, by simp [Nat.min_eq_left h]⟩
  else ub

/-- `$vec::from_slice_unaligned(s)` (packed_simd): panics if the slice is too
short. -/
def fromSlice (s : List α) : Res (Vector α w) := do
  assert (w ≤ s.length)
  fromSliceUnchecked s

/-- `Packed::load` (src/vecs.rs:113-115). -/
def load (data : List α) (offset : Nat) : Res (Vector α w) := do
  let s ← sliceFrom data offset
  fromSlice s

/-- `Packed::load_unchecked` (src/vecs.rs:118-121). -/
def loadUnchecked (c : Cfg) (data : List α) (offset : Nat) : Res (Vector α w) := do
  if c.debug then
    let s ← sliceFrom data offset
    assert (s.length ≥ w)
  let s ← sliceFrom data offset
  fromSliceUnchecked s

/-- `Packed::store` (src/vecs.rs:124-126). `write_to_slice_unaligned` panics if
the slice is too short. -/
def store (v : Vector α w) (data : List α) (offset : Nat) : Res (List α) := do
  let s ← sliceFrom data offset
  assert (w ≤ s.length)
  ok (splice data offset v.toList)

/-- `Packed::store_unchecked` (src/vecs.rs:129-132). -/
def storeUnchecked (c : Cfg) (v : Vector α w) (data : List α) (offset : Nat) : Res (List α) := do
  if c.debug then
    let s ← sliceFrom data offset
    assert (s.length ≥ w)
  let s ← sliceFrom data offset
  if w ≤ s.length then ok (splice data offset v.toList) else ub

/-- `Packed::extract` (src/vecs.rs:143-145). -/
def extract (v : Vector α w) (idx : Nat) : Res α :=
  if h : idx < w then ok v[idx] else panic

/-- `Packed::extract_unchecked` (src/vecs.rs:148-151). -/
def extractUnchecked (c : Cfg) (v : Vector α w) (idx : Nat) : Res α := do
  debugAssert c (idx < w)
  if h : idx < w then ok v[idx] else ub

/-- `Packed::replace` (src/vecs.rs:154-156). -/
def replace (v : Vector α w) (idx : Nat) (data : α) : Res (Vector α w) :=
  if h : idx < w then ok (v.set idx data) else panic

/-- `Packed::replace_unchecked` (src/vecs.rs:159-162). -/
def replaceUnchecked (c : Cfg) (v : Vector α w) (idx : Nat) (data : α) : Res (Vector α w) := do
  debugAssert c (idx < w)
  if h : idx < w then ok (v.set idx data) else ub

/-- `Packed::splat` (src/vecs.rs:165-167). -/
def splat (x : α) : Vector α w := Vector.replicate w x

/-- `Packed::default` (src/vecs.rs:170-172). -/
def default [Packable α] : Vector α w := splat Packable.zero

/-- The loop of `Packed::coalesce` for lanes `i, i+1, …` (src/vecs.rs:136-138). `eq` is the `==`
of the element type; for floats it is not reflexive. -/
def coalesceLoop (eq : α → α → Bool) (c : Cfg) (v : Vector α w) : (n i : Nat) → Res Unit
  | 0, _ => ok ()
  | n + 1, i => do
    if c.debug then
      let a ← extract v (i - 1)
      let b ← extract v i
      assert (eq a b)
    coalesceLoop eq c v n (i + 1)

/-- `Packed::coalesce` (src/vecs.rs:135-140). -/
def coalesce (eq : α → α → Bool) (c : Cfg) (v : Vector α w) : Res α := do
  coalesceLoop eq c v (w - 1) 1
  extract v 0

/-- Loop of `Packed::scalar_reduce` (src/vecs.rs:186-188) for lanes
`i, …, i+n-1`; the closure is stateful through its accumulator and may panic. -/
def scalarReduceLoop {τ : Type} (v : Vector α w) (f : τ → α → Res τ) : (n i : Nat) → τ → Res τ
  | 0, _, acc => ok acc
  | n + 1, i, acc => do
    let x ← extract v i
    let acc ← f acc x
    scalarReduceLoop v f n (i + 1) acc

/-- `Packed::scalar_reduce` (src/vecs.rs:184-190). -/
def scalarReduce {τ : Type} (v : Vector α w) (acc : τ) (f : τ → α → Res τ) : Res τ :=
  scalarReduceLoop v f w 0 acc

/-- `Packed::product` (src/vecs.rs:175-181). `one` is `1 as $el`, `mul` the
scalar `*` (which panics on overflow in debug builds). -/
def product (one : α) (mul : α → α → Res α) (v : Vector α w) : Res α :=
  scalarReduceLoop v mul w 0 one

/-- Loop of the fallback `merge_partitioned` (src/intrin/merge.rs:76-80). -/
def mergeLoop (c : Cfg) (other : Vector α w) : (n i : Nat) → Vector α w → Res (Vector α w)
  | 0, _, ret => ok ret
  | n + 1, i, ret => do
    let x ← extractUnchecked c other i
    let ret ← replaceUnchecked c ret i x
    mergeLoop c other n (i + 1) ret

/-- `Merge::merge_partitioned`, fallback version (src/intrin/merge.rs:72-82).
The blend version for SSE4.1/AVX2 is modelled at byte level in
`Verif/Intrin/Merge.lean` and proved equal for `offset < WIDTH`. -/
def mergePartitioned (c : Cfg) (self other : Vector α w) (offset : Nat) : Res (Vector α w) := do
  assert (offset < w)
  mergeLoop c other (w - offset) offset self

end Packed
end Faster
