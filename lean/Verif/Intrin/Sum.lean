import Verif.Intrin.Cast
/-
Sums and population counts: src/intrin/sum.rs, src/intrin/popcnt.rs,
src/arch/x86/intrin/sum.rs, src/arch/x86/intrin/popcnt.rs.
-/
namespace Faster
open Res

variable {n w : Nat}

/-! ### Sums -/

/-- `impl_packed_sum!` (src/intrin/sum.rs:21-33) for integer types:
`scalar_reduce(0, |acc, s| acc + s)`. -/
def sumFallback (c : Cfg) (k : Kind) (v : Vector (BitVec n) w) : Res (BitVec n) :=
  Packed.scalarReduce v 0#n fun acc s => overflowCheck c k (k.value acc + k.value s) (acc + s)

/-- `s as i64`. -/
def asI64 (k : Kind) (s : BitVec n) : BitVec 64 :=
  if k = .i then s.signExtend 64 else s.zeroExtend 64

/-- `impl_packed_upcast_sum!` (src/intrin/sum.rs:35-47) for integer types:
`scalar_reduce(0i64, |acc, s| acc + (s as i64))`. -/
def sumUpcastFallback (c : Cfg) (k : Kind) (v : Vector (BitVec n) w) : Res (BitVec 64) :=
  Packed.scalarReduce v 0#64 fun acc s =>
    overflowCheck c .i (acc.toInt + (asI64 k s).toInt) (acc + asI64 k s)

/-- `x.extract(i) + x.extract(j) + …` with checked addition. -/
def addLanes (c : Cfg) (k : Kind) (x : Vector (BitVec n) w) : List Nat → Res (BitVec n)
  | [] => panic
  | i :: is => do
    let a ← Packed.extract x i
    is.foldlM (fun acc j => do
      let y ← Packed.extract x j
      overflowCheck c k (k.value acc + k.value y) (acc + y)) a

/-- `_mm_sad_epu8(x, splat(0)).be_u16s()` and the 256-bit form. -/
def sadWords (x : Vector (BitVec 8) w) : Vector (BitVec 16) (w / 2) :=
  reinterpret (X86.sadEpu8 (k := w / 8) x (Packed.splat 0#8))

/-- `u8x16::sum` and `u8x32::sum` (src/arch/x86/intrin/sum.rs:80-88, 100-108);
`idx` is `[0, 4]` and `[0, 4, 8, 12]`. -/
def sumU8 (c : Cfg) (idx : List Nat) (v : Vector (BitVec 8) w) : Res (BitVec 8) := do
  let s ← addLanes c .u (sadWords v) idx
  ok (s.setWidth 8)

/-- `u8x16::sum_upcast` and `u8x32::sum_upcast` (src/arch/x86/intrin/sum.rs:90-98,
110-118). -/
def sumUpcastU8 (c : Cfg) (idx : List Nat) (v : Vector (BitVec 8) w) : Res (BitVec 64) := do
  let s ← addLanes c .u (sadWords v) idx
  ok (s.setWidth 64)

/-- `pos.extract(i).overflowing_sub(neg.extract(i)).0.overflowing_add(…).0…`. -/
def subLanes (pos neg : Vector (BitVec 16) w) : List Nat → Res (BitVec 16)
  | [] => panic
  | i :: is => do
    let p ← Packed.extract pos i
    let q ← Packed.extract neg i
    is.foldlM (fun acc j => do
      let p ← Packed.extract pos j
      let q ← Packed.extract neg j
      ok (acc + (p - q))) (p - q)

/-- The three vector methods `i8x16::sum` calls, in the versions of the target. -/
structure I8Ops (w : Nat) where
  max : Vector (BitVec 8) w → Vector (BitVec 8) w → Res (Vector (BitVec 8) w)
  min : Vector (BitVec 8) w → Vector (BitVec 8) w → Res (Vector (BitVec 8) w)
  abs : Vector (BitVec 8) w → Res (Vector (BitVec 8) w)

/-- `min`/`max` of table row `r` as compiled: its instruction when the target has
the feature (`opt`), else the fallback (src/intrin/macros.rs `impl_cmp` forms). -/
def cmpOf (c : Cfg) (opt : Bool) (r : BinRow) (a b : Vector (BitVec n) w) :
    Res (Vector (BitVec n) w) :=
  if opt then binaryInstr r.mm a b else binaryFallback (r.fn.eval c r.kind) r.idx a b

/-- `abs` of table row `r` as compiled. -/
def absOf (opt : Bool) (r : AbsRow) (v : Vector (BitVec n) w) : Res (Vector (BitVec n) w) :=
  match opt, r.mm with
  | true, some mm => absOptimized mm r.mask v
  | _, _ => absFallback r.kind r.idx v

/-- `upcast` of table row `r` with its instruction (the AVX2 code of
src/arch/x86/intrin/sum.rs:148-194 is only compiled together with it). -/
def upOf {k w' : Nat} (conv : BitVec n → BitVec k) (r : UpRow) (v : Vector (BitVec n) w) :
    Res (Vector (BitVec k) w' × Vector (BitVec k) w') :=
  match r.mm with
  | some mm => upcastInstr conv mm v
  | none => upcastFallback (widen conv r.kind r.toKind) r.first r.second v

/-- `i8x16::sum` and `i8x32::sum` (src/arch/x86/intrin/sum.rs:28-38, 52-64). -/
def sumI8 (o : I8Ops w) (idx : List Nat) (v : Vector (BitVec 8) w) : Res (BitVec 8) := do
  let p ← o.max v (Packed.splat 0#8)
  let q ← o.min v (Packed.splat 0#8)
  let q ← o.abs q
  let s ← subLanes (sadWords p) (sadWords q) idx
  ok (s.setWidth 8)

/-- `i8x16::sum_upcast` and `i8x32::sum_upcast` (src/arch/x86/intrin/sum.rs:40-50,
66-78): the same, then `as i8 as i64`. -/
def sumUpcastI8 (o : I8Ops w) (idx : List Nat) (v : Vector (BitVec 8) w) : Res (BitVec 64) := do
  let p ← o.max v (Packed.splat 0#8)
  let q ← o.min v (Packed.splat 0#8)
  let q ← o.abs q
  let s ← subLanes (sadWords p) (sadWords q) idx
  ok ((s.setWidth 8).signExtend 64)

/-- `_mm_hadd_epi16/32(x, splat(0))` and the 256-bit forms; `e` lanes in 128 bits. -/
def hadd0 (e : Nat) (x : Vector (BitVec n) w) : Vector (BitVec n) w :=
  X86.horizontal e (· + ·) x (Packed.splat 0#n)

/-- `i16x8::sum` (src/arch/x86/intrin/sum.rs:120-132). -/
def sumI16x8 (v : Vector (BitVec 16) 8) : Res (BitVec 16) :=
  Packed.extract (hadd0 8 (hadd0 8 (hadd0 8 v))) 0

/-- `i16x16::sum` (src/arch/x86/intrin/sum.rs:134-146). -/
def sumI16x16 (c : Cfg) (v : Vector (BitVec 16) 16) : Res (BitVec 16) :=
  addLanes c .i (hadd0 8 (hadd0 8 (hadd0 8 v))) [0, 8]

/-- `i32x8::sum` (src/arch/x86/intrin/sum.rs:196-207). -/
def sumI32x8 (c : Cfg) (v : Vector (BitVec 32) 8) : Res (BitVec 32) :=
  addLanes c .i (hadd0 4 (hadd0 4 v)) [0, 4]

/-- Common part of `i16x16::sum_upcast`, `u16x16::sum` and `u16x16::sum_upcast`
(src/arch/x86/intrin/sum.rs:148-194): upcast, horizontal sums of both halves,
checked `i32` additions. `up` is the `upcast` of the target. -/
def sum16x16 (c : Cfg) (up : Vector (BitVec 16) 16 → Res (Vector (BitVec 32) 8 × Vector (BitVec 32) 8))
    (v : Vector (BitVec 16) 16) : Res (BitVec 32) := do
  let ab ← up v
  let x := hadd0 4 (hadd0 4 ab.1)
  let y := hadd0 4 (hadd0 4 ab.2)
  let s ← addLanes c .i x [0, 4]
  let y0 ← Packed.extract y 0
  let s ← overflowCheck c .i (s.toInt + y0.toInt) (s + y0)
  let y4 ← Packed.extract y 4
  overflowCheck c .i (s.toInt + y4.toInt) (s + y4)

/-- `u16x16::sum` (src/arch/x86/intrin/sum.rs:164-178): `… as u16`. -/
def sumU16x16 (c : Cfg) (up : Vector (BitVec 16) 16 → Res (Vector (BitVec 32) 8 × Vector (BitVec 32) 8))
    (v : Vector (BitVec 16) 16) : Res (BitVec 16) := do
  let s ← sum16x16 c up v
  ok (s.setWidth 16)

/-- `i16x16::sum_upcast` and `u16x16::sum_upcast` (src/arch/x86/intrin/sum.rs:148-162,
180-194): `… as i64`. -/
def sumUpcast16x16 (c : Cfg) (up : Vector (BitVec 16) 16 → Res (Vector (BitVec 32) 8 × Vector (BitVec 32) 8))
    (v : Vector (BitVec 16) 16) : Res (BitVec 64) := do
  let s ← sum16x16 c up v
  ok (s.signExtend 64)

/-- `impl_packed_sum!` (src/intrin/sum.rs:21-33) for float types:
`scalar_reduce(0 as Scalar, |acc, s| acc + s)`; `f` is float addition, `zero` is `0.0`. -/
def sumFallbackF (f : BitVec n → BitVec n → BitVec n) (zero : BitVec n) (v : Vector (BitVec n) w) :
    Res (BitVec n) :=
  Packed.scalarReduce v zero fun acc s => ok (f acc s)

/-- `f32x4::sum` (src/arch/x86/intrin/sum.rs:209-220); `f` is float addition. -/
def sumF32x4 (f : BitVec 32 → BitVec 32 → BitVec 32) (v : Vector (BitVec 32) 4) : Res (BitVec 32) :=
  let x := X86.horizontal 4 f v v
  let x := X86.horizontal 4 f x x
  Packed.extract x 0

/-- `f64x2::sum` (src/arch/x86/intrin/sum.rs:222-232). -/
def sumF64x2 (f : BitVec 64 → BitVec 64 → BitVec 64) (v : Vector (BitVec 64) 2) : Res (BitVec 64) :=
  Packed.extract (X86.horizontal 2 f v v) 0

/-- `f32x8::sum` (src/arch/x86/intrin/sum.rs:234-245). -/
def sumF32x8 (f : BitVec 32 → BitVec 32 → BitVec 32) (v : Vector (BitVec 32) 8) : Res (BitVec 32) := do
  let x := X86.horizontal 4 f v v
  let x := X86.horizontal 4 f x x
  let a ← Packed.extract x 0
  let b ← Packed.extract x 4
  ok (f a b)

/-- `f64x4::sum` (src/arch/x86/intrin/sum.rs:247-257). -/
def sumF64x4 (f : BitVec 64 → BitVec 64 → BitVec 64) (v : Vector (BitVec 64) 4) : Res (BitVec 64) := do
  let x := X86.horizontal 2 f v v
  let a ← Packed.extract x 0
  let b ← Packed.extract x 2
  ok (f a b)

/-! ### Population count -/

/-- Number of one bits of a word (`u64::count_ones`). -/
def countOnes (x : BitVec n) : Nat := (List.range n).countP fun k => x.getLsbD k

/-- Nibble table of `popcnt128` and `popcnt256` (src/arch/x86/intrin/popcnt.rs:25,
47-48: the sixteen entries, twice for 256 bits). -/
def popTable : List Nat := [0, 1, 1, 2, 1, 2, 2, 3, 1, 2, 2, 3, 2, 3, 3, 4]

/-- `lookup` as a register. -/
def popLookup : Vector (BitVec 8) w := Vector.ofFn fun i => BitVec.ofNat 8 (popTable.getD (i % 16) 0)

/-- `popcnt128` with SSSE3 and `popcnt256` with AVX2 (src/arch/x86/intrin/popcnt.rs:19-31,
41-54): low and high nibbles looked up by a byte shuffle, added, and summed with
the SAD version of `u8x16/u8x32::sum_upcast` (`idx` as there); `as usize`. -/
def popcntShuffle (c : Cfg) (idx : List Nat) (v : Vector (BitVec 8) w) : Res Nat := do
  let lo := v.map (· &&& 0x0F#8)
  let hi := v.map fun b : BitVec 8 => b >>> 4
  let counts := X86.lanewise (· + ·) (X86.shuffleEpi8 popLookup hi) (X86.shuffleEpi8 popLookup lo)
  let s ← sumUpcastU8 c idx counts
  ok (s.toNat % c.usize)

/-- Fallback `popcnt128`/`popcnt256` and `popcnt512` (src/arch/x86/intrin/popcnt.rs:33-39,
56-69): `v.be_u64s().scalar_reduce(0, |acc, s| acc + (s.count_ones() as usize))`. -/
def popcntFallback (c : Cfg) (v : Vector (BitVec 8) w) : Res Nat :=
  Packed.scalarReduce (reinterpret v : Vector (BitVec 64) (w / 8)) 0 fun acc s =>
    uadd c acc (countOnes s % c.usize)

/-- `Popcnt::count_zeroes` (src/intrin/popcnt.rs:14-16) given `count_ones`. -/
def countZeroes (c : Cfg) (width size : Nat) (ones : Res Nat) : Res Nat := do
  let a ← umul c width size
  let b ← umul c a 8
  let o ← ones
  usub c b o

end Faster
