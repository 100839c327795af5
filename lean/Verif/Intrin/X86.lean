import Verif.Intrin.Bits
/-
The x86 SIMD instructions used by `src/arch/x86/intrin/*.rs`, following Intel's
description of each intrinsic. They are external to the repository (crate
`vektor`/`core::arch`), so these definitions are part of the trusted base.

Conventions: a register is a `Vector (BitVec n) w`, lane 0 at the lowest
address. Most 256-bit instructions work on each 128-bit half separately; such
definitions take `e`, the number of lanes in 128 bits, so one definition covers
the `_mm_` (one half) and `_mm256_` (two halves) forms.
-/
namespace Faster
open Res

namespace X86
variable {α : Type} {n w : Nat}

/-- Lane `i` of a register (indices are always in range where it is used). -/
def lane (v : Vector (BitVec n) w) (i : Nat) : BitVec n := v[i]?.getD 0#n

/-- `_mm_shuffle_epi8`, `_mm256_shuffle_epi8` (PSHUFB): byte `i` of the result
is 0 if the top bit of control byte `i` is set, otherwise the byte selected by
its low four bits inside the same 128-bit half. -/
def shuffleEpi8 (a b : Vector (BitVec 8) w) : Vector (BitVec 8) w :=
  Vector.ofFn fun i =>
    if b[i].msb then 0#8 else lane a (i / 16 * 16 + b[i].toNat % 16)

/-- `_mm_blendv_epi8`, `_mm256_blendv_epi8` (PBLENDVB): the top bit of each
mask byte selects `b` (1) or `a` (0). -/
def blendvEpi8 (a b mask : Vector (BitVec 8) w) : Vector (BitVec 8) w :=
  Vector.ofFn fun i => if mask[i].msb then b[i] else a[i]

/-- Two-bit field `j` of an immediate operand. -/
def field2 (imm j : Nat) : Nat := imm / 4 ^ j % 4

/-- `_mm256_permute4x64_epi64` (VPERMQ): any 64-bit lane to any position. -/
def permute4x64 (a : Vector (BitVec 64) 4) (imm : Nat) : Vector (BitVec 64) 4 :=
  Vector.ofFn fun j => lane a (field2 imm j)

/-- `_mm_shuffle_epi32` (PSHUFD). -/
def shuffleEpi32 (a : Vector (BitVec 32) 4) (imm : Nat) : Vector (BitVec 32) 4 :=
  Vector.ofFn fun j => lane a (field2 imm j)

/-- `_mm_shuffle_ps` (SHUFPS): low two lanes from `a`, high two from `b`. -/
def shufflePs (a b : Vector (BitVec 32) 4) (imm : Nat) : Vector (BitVec 32) 4 :=
  Vector.ofFn fun j => if j.val < 2 then lane a (field2 imm j) else lane b (field2 imm j)

/-- `_mm_unpacklo_epi32/64`, `_mm256_unpacklo_epi32/64` (PUNPCKL*): interleave
the low halves of each 128-bit block. -/
def unpacklo (e : Nat) (a b : Vector (BitVec n) w) : Vector (BitVec n) w :=
  Vector.ofFn fun i =>
    let q := i.val / e
    let t := i.val % e
    if t % 2 = 0 then lane a (q * e + t / 2) else lane b (q * e + t / 2)

/-- `_mm_unpackhi_epi32/64`, `_mm256_unpackhi_epi32/64` (PUNPCKH*): interleave
the high halves of each 128-bit block. -/
def unpackhi (e : Nat) (a b : Vector (BitVec n) w) : Vector (BitVec n) w :=
  Vector.ofFn fun i =>
    let q := i.val / e
    let t := i.val % e
    if t % 2 = 0 then lane a (q * e + e / 2 + t / 2) else lane b (q * e + e / 2 + t / 2)

/-- Horizontal operations `_mm_hadd_epi16/32/ps/pd`, `_mm_hsub_…`,
`_mm_hadds_epi16`, `_mm_hsubs_epi16` and their `_mm256_` forms (PHADD*, PHSUB*,
HADDP*, HSUBP*): in each 128-bit block, first the adjacent pairs of `a`, then
the adjacent pairs of `b`, combined with `f` (wrapping or saturating lane
arithmetic; float arithmetic is left abstract). -/
def horizontal (e : Nat) (f : BitVec n → BitVec n → BitVec n)
    (a b : Vector (BitVec n) w) : Vector (BitVec n) w :=
  Vector.ofFn fun i =>
    let q := i.val / e
    let t := i.val % e
    if t < e / 2 then f (lane a (q * e + 2 * t)) (lane a (q * e + 2 * t + 1))
    else f (lane b (q * e + 2 * (t - e / 2))) (lane b (q * e + 2 * (t - e / 2) + 1))

/-- Lane-wise two-operand instructions (PADDS*, PSUBS*, PMIN*, PMAX*, PCMPEQ*,
ANDPS, …). -/
def lanewise {k : Nat} (f : BitVec n → BitVec n → BitVec k)
    (a b : Vector (BitVec n) w) : Vector (BitVec k) w :=
  Vector.ofFn fun i => f a[i] b[i]

/-- Intel's `SaturateS`: nearest signed `n`-bit value. -/
def satS (n : Nat) (x : Int) : BitVec n :=
  if x > 2 ^ (n - 1) - 1 then BitVec.ofInt n (2 ^ (n - 1) - 1)
  else if x < -2 ^ (n - 1) then BitVec.ofInt n (-2 ^ (n - 1))
  else BitVec.ofInt n x

/-- Intel's `SaturateU`: nearest unsigned `n`-bit value. -/
def satU (n : Nat) (x : Int) : BitVec n :=
  if x > 2 ^ n - 1 then BitVec.ofInt n (2 ^ n - 1)
  else if x < 0 then 0#n
  else BitVec.ofInt n x

/-- `_mm_adds_epi8/16`, `_mm256_adds_epi8/16` (PADDSB/W). -/
def addsEpi (a b : BitVec n) : BitVec n := satS n (a.toInt + b.toInt)
/-- `_mm_adds_epu8/16`, `_mm256_adds_epu8/16` (PADDUSB/W). -/
def addsEpu (a b : BitVec n) : BitVec n := satU n (a.toNat + b.toNat)
/-- `_mm_subs_epi8/16`, `_mm256_subs_epi8/16` (PSUBSB/W). -/
def subsEpi (a b : BitVec n) : BitVec n := satS n (a.toInt - b.toInt)
/-- `_mm_subs_epu8/16`, `_mm256_subs_epu8/16` (PSUBUSB/W). -/
def subsEpu (a b : BitVec n) : BitVec n := satU n ((a.toNat : Int) - b.toNat)
/-- `_mm_min_epi8/16/32` (PMINS*). -/
def minEpi (a b : BitVec n) : BitVec n := if a.slt b then a else b
/-- `_mm_max_epi8/16/32` (PMAXS*). -/
def maxEpi (a b : BitVec n) : BitVec n := if b.slt a then a else b
/-- `_mm_min_epu8/16/32` (PMINU*). -/
def minEpu (a b : BitVec n) : BitVec n := if a.ult b then a else b
/-- `_mm_max_epu8/16/32` (PMAXU*). -/
def maxEpu (a b : BitVec n) : BitVec n := if b.ult a then a else b
/-- `_mm_cmpeq_epi8/16/32/64` (PCMPEQ*): all ones if equal, else zero. -/
def cmpeqEpi (a b : BitVec n) : BitVec n := if a = b then BitVec.allOnes n else 0#n

/-- `_mm_abs_epi8/16/32`, `_mm256_abs_epi8/16/32` (PABS*): the absolute value
as an unsigned number. -/
def absEpi (a : BitVec n) : BitVec n := if a.msb then -a else a

/-- `_mm_sad_epu8`, `_mm256_sad_epu8` (PSADBW): for every group of eight bytes
the sum of absolute differences, zero-extended to 64 bits. -/
def sadEpu8 {k : Nat} (a b : Vector (BitVec 8) w) : Vector (BitVec 64) k :=
  Vector.ofFn fun g =>
    BitVec.ofNat 64 (((List.range 8).map fun t =>
      let x := (lane a (g * 8 + t)).toNat
      let y := (lane b (g * 8 + t)).toNat
      if x < y then y - x else x - y).sum)

/-- Pack instructions `_mm_packs_epi16/32`, `_mm_packus_epi16/32` and their
`_mm256_` forms (PACKSS*, PACKUS*): in each 128-bit block the `e` lanes of `a`
then the `e` lanes of `b`, narrowed with `f`. -/
def pack {k w' : Nat} (e : Nat) (f : BitVec n → BitVec k) (a b : Vector (BitVec n) w) :
    Vector (BitVec k) w' :=
  Vector.ofFn fun i =>
    let q := i.val / (2 * e)
    let t := i.val % (2 * e)
    if t < e then f (lane a (q * e + t)) else f (lane b (q * e + (t - e)))

/-- Narrowing of `_mm_packs_epi16/32`: signed source, signed saturation. -/
def narrowSS (k : Nat) (x : BitVec n) : BitVec k := satS k x.toInt
/-- Narrowing of `_mm_packus_epi16/32`: *signed* source, unsigned saturation. -/
def narrowUS (k : Nat) (x : BitVec n) : BitVec k := satU k x.toInt

/-- `_mm256_castsi256_si128`: the low 128 bits (as 16 bytes). -/
def castSi128 (a : Vector (BitVec 8) 32) : Vector (BitVec 8) 16 :=
  Vector.ofFn fun i => lane a i

end X86
end Faster
