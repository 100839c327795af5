import Verif.Intrin.X86
/-
Pattern constructors (`src/arch/x86/vec_patterns.rs`,
`src/arch/unknown/vec_patterns.rs`) and merges (`src/intrin/merge.rs`), in the
fallback and the blend versions.
-/
namespace Faster
open Res

variable {α : Type} {n w : Nat}

/-- `Self::new(e₀, e₁, …)`: evaluates the lane expressions from left to right
and builds the vector. (A wrong number of arguments is a compile error; the
model uses `panic` for it.) -/
def newLanes (xs : List (Res α)) : Res (Vector α w) := do
  let l ← xs.mapM id
  if h : l.length = w then ok ⟨l.toArray, by simp [h]⟩ else panic

/-! ### Patterns

The source spells out one literal lane list per type; `C114_model` (Props/Patterns.lean)
says that each of them is the formula used here. -/

/-- `Pattern::halfs` (src/arch/x86/vec_patterns.rs:39-41 for u8x64; the other
types likewise). -/
def halfs (hi lo : α) : Vector α w := Vector.ofFn fun i => if i.val < w / 2 then hi else lo

/-- `Pattern::interleave` (src/arch/x86/vec_patterns.rs:44-46). -/
def interleave (hi lo : α) : Vector α w := Vector.ofFn fun i => if i.val % 2 = 0 then hi else lo

/-- `Pattern::ones` (src/arch/x86/vec_patterns.rs:139-141): a literal with all
bits set. -/
def ones : Vector (BitVec n) w := Packed.splat (BitVec.allOnes n)

/-- `Pattern::zeroes` (src/arch/x86/vec_patterns.rs:145-147). -/
def zeroes : Vector (BitVec n) w := Packed.splat 0#n

/-- `PART_MASK` (src/arch/x86/vec_patterns.rs:20-35): 64 bytes 0x00, then 64
bytes 0xFF. -/
def partMask : Vector (BitVec 8) 128 := Vector.ofFn fun i => if i.val < 64 then 0#8 else 255#8

/-- `Self::load(transmute(&PART_MASK[..]), idx)` (in `partition_mask`). The
transmuted slice keeps the length 128 of the byte slice although it now counts
lanes of `n / 8` bytes, so the bounds checks of `load` (src/vecs.rs:113-115) are
done against 128 lanes while only `128 / (n / 8)` lanes are really there:
reading past those is undefined behaviour. Alignment is ignored. -/
def loadPartMask (idx : Nat) : Res (Vector (BitVec n) w) := do
  assert (idx ≤ 128)
  assert (w ≤ 128 - idx)
  let lanes : Vector (BitVec n) (128 / (n / 8)) := reinterpret partMask
  Packed.fromSliceUnchecked (lanes.toList.drop idx)

/-- `Pattern::partition_mask` (src/arch/x86/vec_patterns.rs:49-53,
src/arch/unknown/vec_patterns.rs:49-53). -/
def partitionMask (c : Cfg) (off : Nat) : Res (Vector (BitVec n) w) := do
  debugAssert c (off ≤ w)
  if c.debug then
    let bytes ← umul c off (n / 8)
    assert (bytes ≤ 64)
  let idx ← usub c (64 / (n / 8)) off
  loadPartMask idx

/-- `_mm_blendv_epi8`/`_mm256_blendv_epi8` applied to vectors of any lane type
through `be_i8s`/`transmute` (src/intrin/merge.rs:91-95). -/
def blendLanes (a b mask : Vector (BitVec n) w) : Vector (BitVec n) w :=
  reinterpret (X86.blendvEpi8 (w := w * (n / 8)) (reinterpret a) (reinterpret b) (reinterpret mask))

/-- `Pattern::partition`, table version (src/arch/x86/vec_patterns.rs:62-135):
`assert!(off <= WIDTH)` and a match with one literal vector per offset. -/
def partitionTable (hi lo : α) (off : Nat) : Res (Vector α w) := do
  assert (off ≤ w)
  ok (Vector.ofFn fun i => if i.val < off then hi else lo)

/-- `Pattern::partition`, SSE4.1/AVX2 version
(src/arch/x86/vec_patterns.rs:168-173 for u8x32). -/
def partitionBlend (c : Cfg) (hi lo : BitVec n) (off : Nat) : Res (Vector (BitVec n) w) := do
  let mask ← partitionMask c off
  ok (blendLanes (Packed.splat hi) (Packed.splat lo) mask)

/-! ### Merges -/

/-- `merge_halves`, fallback (src/intrin/merge.rs:55-61; lane lists
`0..WIDTH/2` and `WIDTH/2..WIDTH` in src/arch/x86/intrin/merge.rs:12-50). -/
def mergeHalvesFallback (c : Cfg) (self other : Vector α w) : Res (Vector α w) :=
  newLanes
    ((List.range (w / 2)).map (fun i => Packed.extractUnchecked c self i) ++
      (List.range' (w / 2) (w - w / 2)).map (fun i => Packed.extractUnchecked c other i))

/-- `merge_interleaved`, fallback (src/intrin/merge.rs:64-69; lane pairs
`0, 1, …, WIDTH-1`). -/
def mergeInterleavedFallback (c : Cfg) (self other : Vector α w) : Res (Vector α w) :=
  newLanes ((List.range (w / 2)).flatMap fun k =>
    [Packed.extractUnchecked c self (2 * k), Packed.extractUnchecked c other (2 * k + 1)])

/-- `merge_halves`, blend version (src/intrin/merge.rs:89-95). -/
def mergeHalvesBlend (self other : Vector (BitVec n) w) : Vector (BitVec n) w :=
  blendLanes self other (halfs 0#n (BitVec.allOnes n))

/-- `merge_interleaved`, blend version (src/intrin/merge.rs:98-104). -/
def mergeInterleavedBlend (self other : Vector (BitVec n) w) : Vector (BitVec n) w :=
  blendLanes self other (interleave 0#n (BitVec.allOnes n))

/-- `merge_partitioned`, blend version (src/intrin/merge.rs:107-113). -/
def mergePartitionedBlend (c : Cfg) (self other : Vector (BitVec n) w) (offset : Nat) :
    Res (Vector (BitVec n) w) := do
  let mask ← partitionMask c offset
  ok (blendLanes self other mask)

end Faster
