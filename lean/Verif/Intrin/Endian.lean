import Verif.Iters
import Verif.Intrin.Shuffle
/-
Vectors in the memory of targets of either endianness: `src/intrin/transmute.rs` there, and the
tests of `src/iters.rs` which combine it with `src/intrin/endian.rs`.
-/
namespace Faster
open Res SIMDIterable SIMDIterator

variable {m n w w' : Nat}

/-- The bytes of a vector in the order of their addresses; `big` is `target_endian = "big"`.
Lanes have increasing addresses on both kinds of targets. -/
def memory (big : Bool) (v : Vector (BitVec n) w) : List (BitVec 8) :=
  v.toList.flatMap fun x => (List.range (n / 8)).map fun t =>
    x.extractLsb' ((if big then n / 8 - 1 - t else t) * 8) 8

/-- The vector whose bytes are in `l`. -/
def ofMemory (big : Bool) (l : List (BitVec 8)) : Vector (BitVec n) w :=
  Vector.ofFn fun j => BitVec.ofFnLE fun k : Fin n =>
    (l.getD (j.val * (n / 8) + (if big then n / 8 - 1 - k.val / 8 else k.val / 8)) 0).getLsbD
      (k.val % 8)

/-- `mem::transmute` between vectors, `be_u8s` and the others (src/intrin/transmute.rs:50-98,
src/arch/unknown/intrin/transmute.rs), on either kind of target. `reinterpret` is the version for
little-endian ones (`transmuteOn_little`). -/
def transmuteOn (big : Bool) (v : Vector (BitVec m) w) : Vector (BitVec n) w' :=
  ofMemory big (memory big v)

/-- `bitcast_map_width_doubles`, `bitcast_map_width_quadruples` and `bitcast_map_width_octuples`
(src/iters.rs:800-830): `simd_map(|v| v.to_le().be_u32s())` and `scalar_collect`. -/
def bitcastMap (w' n : Nat) (big : Bool) (swap : Vector (BitVec m) w → Vector (BitVec m) w) (c : Cfg)
    (fuel : Nat) (data : List (BitVec m)) : Res (List (Option (BitVec n))) := do
  let (_, out) ← scalarCollect c fuel (simdMap (simdIter data (Packed.splat 0#m)) ()
    (fun _ v => ok ((transmuteOn big (toLe big swap v) : Vector (BitVec n) w'), ())))
  ok out

end Faster
