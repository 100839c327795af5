import Verif.Intrin.Merge
import Verif.Intrin.Tables
/-
Byte shuffles: `src/intrin/endian.rs`, `src/intrin/swizzle.rs` and their x86
instances (tables in `Verif/Intrin/Tables.lean`).
-/
namespace Faster
open Res

variable {n w : Nat}

/-- `$uvec::new($($c),*).be_i8s()`: a control register with the given bytes. -/
def ctlVec {W : Nat} (ctl : List Nat) : Vector (BitVec 8) W :=
  Vector.ofFn fun i => BitVec.ofNat 8 (ctl.getD i 0)

/-- `transmute($mmfn(self.be_i8s(), $uvec::new($($c),*).be_i8s()))` with
`_mm_shuffle_epi8`/`_mm256_shuffle_epi8` (src/intrin/endian.rs:86,
src/intrin/swizzle.rs:40). -/
def shuffleLanes (ctl : List Nat) (v : Vector (BitVec n) w) : Vector (BitVec n) w :=
  reinterpret (X86.shuffleEpi8 (w := w * (n / 8)) (reinterpret v) (ctlVec ctl))

/-- Rust's integer `swap_bytes`: byte `t` of the result is byte `SIZE-1-t`. -/
def swapBytesScalar (x : BitVec n) : BitVec n :=
  BitVec.ofFnLE fun k : Fin n => x.getLsbD ((n / 8 - 1 - k / 8) * 8 + k % 8)

/-- `swap_bytes`, fallback (src/intrin/endian.rs:75-79) with lane list `idx`. -/
def swapBytesFallback (idx : List Nat) (v : Vector (BitVec n) w) : Res (Vector (BitVec n) w) :=
  newLanes (idx.map fun i => do
    let x ← Packed.extract v i
    ok (swapBytesScalar x))

/-- `swap_bytes`, shuffle version (src/intrin/endian.rs:83-88). -/
def swapBytesShuffle (ctl : List Nat) (v : Vector (BitVec n) w) : Vector (BitVec n) w :=
  shuffleLanes ctl v

/-- Consecutive pairs of a list of macro arguments `$($a:expr, $b:expr),*`. -/
def pairs {β : Type} : List β → List (β × β)
  | a :: b :: l => (a, b) :: pairs l
  | _ => []

/-- `flip`, fallback (src/intrin/swizzle.rs:30-33). -/
def flipFallback {α : Type} (idx : List Nat) (v : Vector α w) : Res (Vector α w) :=
  newLanes ((pairs idx).flatMap fun p => [Packed.extract v p.2, Packed.extract v p.1])

/-- `flip`, shuffle version (src/intrin/swizzle.rs:37-42). -/
def flipShuffle (ctl : List Nat) (v : Vector (BitVec n) w) : Vector (BitVec n) w :=
  shuffleLanes ctl v

/-- `to_be` (src/intrin/endian.rs:21-31); `big` is `target_endian = "big"`, `swap`
the type's `swap_bytes`. -/
def toBe {α : Type} (big : Bool) (swap : α → α) (v : α) : α := if big then v else swap v
/-- `to_le` (src/intrin/endian.rs:33-43). -/
def toLe {α : Type} (big : Bool) (swap : α → α) (v : α) : α := if big then swap v else v
/-- `from_be` (src/intrin/endian.rs:45-55). -/
def fromBe {α : Type} (big : Bool) (swap : α → α) (v : α) : α := if big then v else swap v
/-- `from_le` (src/intrin/endian.rs:57-67). -/
def fromLe {α : Type} (big : Bool) (swap : α → α) (v : α) : α := if big then swap v else v

end Faster
