import Verif.Iters
import Verif.Intrin.Bits
/-
The two versions of the base100 encoder in benches/usage.rs. The vector version uses
upcasts, a saturating downcast, `swap_bytes`, interleaving merges and views of vectors
as bytes; which instructions these are depends on the target.
-/
namespace Faster
open Res

/-- The operations of one target which `base100_enc_simd` uses. `u8s` has `4 * q`
lanes, `u16s` has `2 * q` and `u32s` has `q`. The instances of `Upcast`, `Downcast`,
`Endian` and `Merge` are modelled in `Verif/Intrin`. -/
structure Base100Ops (q : Nat) where
  /-- `u8s::upcast` -/
  up8 : Vector (BitVec 8) (4 * q) → Res (Vector (BitVec 16) (2 * q) × Vector (BitVec 16) (2 * q))
  /-- `u16s::upcast` -/
  up16 : Vector (BitVec 16) (2 * q) → Res (Vector (BitVec 32) q × Vector (BitVec 32) q)
  /-- `u16s::saturating_downcast` -/
  down16 : Vector (BitVec 16) (2 * q) → Vector (BitVec 16) (2 * q) → Res (Vector (BitVec 8) (4 * q))
  /-- `u16s::swap_bytes` -/
  swap16 : Vector (BitVec 16) (2 * q) → Res (Vector (BitVec 16) (2 * q))
  /-- `u16s::merge_interleaved` -/
  merge16 : Vector (BitVec 16) (2 * q) → Vector (BitVec 16) (2 * q) →
    Res (Vector (BitVec 16) (2 * q))
  /-- `u32s::merge_interleaved` -/
  merge32 : Vector (BitVec 32) q → Vector (BitVec 32) q → Res (Vector (BitVec 32) q)

/-- The closure of `base100_enc_simd` (benches/usage.rs:304-328), called with a vector
of `[123u8; 1024].simd_iter(u8s(0))`. Its state is the captured buffer `out` and the
captured offset `i`. The operators `+`, `/` and `&` are those of hardware vectors,
which wrap. `be_u16s` of a `u16s` is the identity. -/
def base100Body {q : Nat} (o : Base100Ops q) (c : Cfg) :
    FnMut (List (BitVec 8) × Nat) (Vector (BitVec 8) (4 * q)) Unit := fun (out, i) v => do
  let (a, b) ← o.up8 v
  let third ← o.down16 (a.map fun x => (x + 55#16) / 64#16 + 143#16)
    (b.map fun x => (x + 55#16) / 64#16 + 143#16)
  let fourth := v.map fun x => ((x + 55#8) &&& 0x3f#8) + 128#8
  let (ta, tb) ← o.up8 third
  let (fa, fb) ← o.up8 fourth
  let thirdFourthA ← o.merge16 (← o.swap16 ta) fa
  let thirdFourthB ← o.merge16 (← o.swap16 tb) fb
  let (tfa, tfb) ← o.up16 thirdFourthA
  let (tfc, tfd) ← o.up16 thirdFourthB
  let u ← o.merge32 (Packed.splat 0xf09f0000#32) tfa
  let out ← Packed.store (reinterpret u : Vector (BitVec 8) (4 * q)) out i
  let u ← o.merge32 (Packed.splat 0xf09f0000#32) tfb
  let out ← Packed.store (reinterpret u : Vector (BitVec 8) (4 * q)) out (← uadd c i (4 * q))
  let u ← o.merge32 (Packed.splat 0xf09f0000#32) tfc
  let out ← Packed.store (reinterpret u : Vector (BitVec 8) (4 * q)) out
    (← uadd c i (← umul c (4 * q) 2))
  let u ← o.merge32 (Packed.splat 0xf09f0000#32) tfd
  let out ← Packed.store (reinterpret u : Vector (BitVec 8) (4 * q)) out
    (← uadd c i (← umul c (4 * q) 3))
  let i ← uadd c i (← umul c (4 * q) 4)
  ok ((), (out, i))

/-- `base100_enc_simd` (benches/usage.rs:300-331) on any data and any buffer. -/
def base100Simd {q : Nat} (o : Base100Ops q) (c : Cfg) (fuel : Nat) (data out : List (BitVec 8)) :
    Res (List (BitVec 8)) := do
  let (_, out, _) ← simdDoEach c fuel (simdIter data (Packed.splat 0#8)) (out, 0) (base100Body o c)
  ok out

/-- The loop of `base100_enc_scalar` (benches/usage.rs:337-342), `i` the counter of
`enumerate`. The addition of 143 in `u16` does not overflow. -/
def base100ScalarLoop (c : Cfg) : (data : List (BitVec 8)) → (i : Nat) → List (BitVec 8) →
    Res (List (BitVec 8))
  | [], _, out => ok out
  | ch :: data, i, out => do
    let i' ← uadd c i 1
    let out ← indexSet out (← uadd c (← umul c 4 i) 0) 0xf0#8
    let out ← indexSet out (← uadd c (← umul c 4 i) 1) 0x9f#8
    let out ← indexSet out (← uadd c (← umul c 4 i) 2)
      ((((ch.zeroExtend 16 + 55#16) >>> 6) + 143#16).setWidth 8)
    let out ← indexSet out (← uadd c (← umul c 4 i) 3) (((ch + 55#8) &&& 0x3f#8) + 128#8)
    base100ScalarLoop c data i' out

/-- `base100_enc_scalar` (benches/usage.rs:334-345). -/
def base100Scalar (c : Cfg) (data out : List (BitVec 8)) : Res (List (BitVec 8)) :=
  base100ScalarLoop c data 0 out

end Faster
