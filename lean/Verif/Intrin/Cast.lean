import Verif.Intrin.Arith
import Verif.Intrin.CastTables
/-
Absolute values, upcasts and saturating downcasts: src/arch/x86/intrin/abs.rs,
upcast.rs, downcast.rs and their versions under src/arch/unknown/intrin
(instances extracted to `Verif/Intrin/CastTables.lean`).
-/
namespace Faster
open Res

variable {α β : Type} {n k w w' : Nat}

/-! ### Absolute value -/

/-- `overflowing_abs().0` of a signed integer (`core`): `wrapping_neg` if negative. -/
def absScalar (x : BitVec n) : BitVec n := if x.toInt < 0 then 0#n - x else x

/-- `f32::abs`/`f64::abs` (`core`): the sign bit cleared. -/
def fabsScalar (x : BitVec n) : BitVec n := BitVec.ofNat n (x.toNat % 2 ^ (n - 1))

/-- Fallback `abs` (src/arch/x86/intrin/abs.rs:26-34, 47-53, 70-78, 91-99, 112-132,
145-157, 170-178, 191-227, 240-259, 272-283, 286-325; all of
src/arch/unknown/intrin/abs.rs): every lane in turn. The signed result is
transmuted to the unsigned type of the same width. -/
def absFallback (kind : Kind) (idx : List Nat) (self : Vector (BitVec n) w) :
    Res (Vector (BitVec n) w) :=
  newLanes (idx.map fun i => do
    let x ← Packed.extract self i
    ok (if kind = .f then fabsScalar x else absScalar x))

/-- One-operand and bitwise instructions used by `abs`. -/
inductive AbsInstr
  /-- PABS* on lanes of `lane` bits. -/
  | abs (total lane : Nat)
  /-- ANDPS/ANDPD: bitwise and of the whole register. -/
  | and (total : Nat)
  deriving DecidableEq

/-- Instructions used by `abs`. -/
def Instr.abs : Instr → Option AbsInstr
  | .mm_abs_epi8 => some (.abs 128 8)
  | .mm_abs_epi16 => some (.abs 128 16)
  | .mm_abs_epi32 => some (.abs 128 32)
  | .mm256_abs_epi8 => some (.abs 256 8)
  | .mm256_abs_epi16 => some (.abs 256 16)
  | .mm256_abs_epi32 => some (.abs 256 32)
  | .mm_and_ps => some (.and 128)
  | .mm_and_pd => some (.and 128)
  | .mm256_and_ps => some (.and 256)
  | .mm256_and_pd => some (.and 256)
  | _ => none

/-- Optimized `abs` (src/arch/x86/intrin/abs.rs:19-24, 40-45, 59-68, 84-89,
105-110, 138-143, 163-168, 184-189, 233-238, 265-270): `mm(*self)` for integers,
`mm(*self, splat(mask))` for floats. -/
def absOptimized (i : Instr) (mask : Nat) (self : Vector (BitVec n) w) :
    Res (Vector (BitVec n) w) :=
  match i.abs with
  | none => panic
  | some (.abs total lane) =>
    if n * w = total then
      ok (reinterpret ((reinterpret self : Vector (BitVec lane) (total / lane)).map X86.absEpi))
    else panic
  | some (.and total) =>
    if n * w = total then
      ok (X86.lanewise (· &&& ·) self (Packed.splat (BitVec.ofNat n mask)))
    else panic

/-! ### Upcast -/

/-- Lane conversion of an upcast: `as` between integers of the same signedness,
or a conversion `conv` to a float, which is not modelled. -/
def widen (conv : BitVec n → BitVec k) (kind toKind : Kind) (x : BitVec n) : BitVec k :=
  if toKind = .f then conv x else if kind = .i then x.signExtend k else x.zeroExtend k

/-- Fallback `upcast` (src/arch/x86/intrin/upcast.rs:28-48, …;
src/arch/unknown/intrin/upcast.rs): `(T::new(self.extract(0) as t, …), T::new(…))`. -/
def upcastFallback (f : α → β) (first second : List Nat) (self : Vector α w) :
    Res (Vector β w' × Vector β w') := do
  let a ← newLanes (first.map fun i => do ok (f (← Packed.extract self i)))
  let b ← newLanes (second.map fun i => do ok (f (← Packed.extract self i)))
  ok (a, b)

/-- Lane conversions of the extension instructions. -/
inductive ExtOp
  /-- PMOVSX* -/
  | sign
  /-- PMOVZX* -/
  | zero
  /-- CVTPS2PD, CVTDQ2PD: conversion to float. -/
  | float
  deriving DecidableEq

/-- An extension instruction: bits of the result register, bits of a source and
a result lane, conversion. -/
structure ExtInstr where
  total : Nat
  src : Nat
  dst : Nat
  op : ExtOp
  deriving DecidableEq

/-- Extension instructions used by `upcast`. -/
def Instr.ext : Instr → Option ExtInstr
  | .mm_cvtepi8_epi16 => some ⟨128, 8, 16, .sign⟩
  | .mm_cvtepi16_epi32 => some ⟨128, 16, 32, .sign⟩
  | .mm_cvtepi32_epi64 => some ⟨128, 32, 64, .sign⟩
  | .mm_cvtepu8_epi16 => some ⟨128, 8, 16, .zero⟩
  | .mm_cvtepu16_epi32 => some ⟨128, 16, 32, .zero⟩
  | .mm_cvtepu32_epi64 => some ⟨128, 32, 64, .zero⟩
  | .mm_cvtps_pd => some ⟨128, 32, 64, .float⟩
  | .mm_cvtepi32_pd => some ⟨128, 32, 64, .float⟩
  | .mm256_cvtepi8_epi16 => some ⟨256, 8, 16, .sign⟩
  | .mm256_cvtepi16_epi32 => some ⟨256, 16, 32, .sign⟩
  | .mm256_cvtepi32_epi64 => some ⟨256, 32, 64, .sign⟩
  | .mm256_cvtepu8_epi16 => some ⟨256, 8, 16, .zero⟩
  | .mm256_cvtepu16_epi32 => some ⟨256, 16, 32, .zero⟩
  | .mm256_cvtepu32_epi64 => some ⟨256, 32, 64, .zero⟩
  | .mm256_cvtps_pd => some ⟨256, 32, 64, .float⟩
  | .mm256_cvtepi32_pd => some ⟨256, 32, 64, .float⟩
  | _ => none

/-- The conversion of an extension instruction on one lane. -/
def ExtOp.eval (conv : BitVec n → BitVec k) : ExtOp → BitVec n → BitVec k
  | .sign, x => x.signExtend k
  | .zero, x => x.zeroExtend k
  | .float, x => conv x

/-- An extension instruction: converts the first lanes of its 128-bit operand. -/
def cvt (f : BitVec n → BitVec k) (a : Vector (BitVec n) w) : Vector (BitVec k) w' :=
  Vector.ofFn fun i => f (X86.lane a i)

/-- Optimized `upcast` of a 128-bit type (src/arch/x86/intrin/upcast.rs:19-26, 54-61,
89-94, 115-120, 324-328, 344-347, 363-369, 385-390); `0x0E` moves the high half
down. The second operand of the conversion is reinterpreted on the way. -/
def upcast128 (f : BitVec n → BitVec k) (self : Vector (BitVec n) w) :
    Vector (BitVec k) w' × Vector (BitVec k) w' :=
  (cvt f self,
   cvt f (reinterpret (X86.shuffleEpi32 (reinterpret self) 0x0E) : Vector (BitVec n) w))

/-- Optimized `upcast` of a 256-bit type (src/arch/x86/intrin/upcast.rs:141-147,
191-204, 248-254, 283-296, 406-420, 440-453, 473-486, 506-511). -/
def upcast256 (f : BitVec n → BitVec k) (self : Vector (BitVec n) w) :
    Vector (BitVec k) w' × Vector (BitVec k) w' :=
  (cvt f (reinterpret (X86.castSi128 (reinterpret self)) : Vector (BitVec n) w'),
   cvt f (reinterpret (X86.castSi128 (reinterpret (X86.permute4x64 (reinterpret self) 0x0E))) :
    Vector (BitVec n) w'))

/-- Optimized `upcast` with conversion instruction `i`; instructions for other lane
or register sizes would not compile (`panic`). -/
def upcastInstr (conv : BitVec n → BitVec k) (i : Instr) (self : Vector (BitVec n) w) :
    Res (Vector (BitVec k) w' × Vector (BitVec k) w') :=
  match i.ext with
  | none => panic
  | some e =>
    if e.src = n ∧ e.dst = k ∧ n * w = e.total ∧ k * w' = e.total then
      if e.total = 128 then ok (upcast128 (e.op.eval conv) self)
      else ok (upcast256 (e.op.eval conv) self)
    else panic

/-! ### Downcast -/

/-- One lane of a fallback: `x.min(top).max(bottom) as to` (no `max` if unsigned).
`Ord::min`/`Ord::max` of integers; `as` truncates. -/
def narrowScalar (kind : Kind) (l : DownLane) (x : BitVec n) : BitVec k :=
  let m := min (kind.value x) l.top
  BitVec.ofInt k (if kind = .i then max m l.bottom else m)

/-- Fallback `saturating_downcast` of integer types
(src/arch/x86/intrin/downcast.rs:24-36, 39-59, 80-100, 111-123, 134-154, 165-185,
196-232, 243-263, 274-310, 313-341; src/arch/unknown/intrin/downcast.rs). -/
def downcastFallback (kind : Kind) (lanes : List DownLane) (self other : Vector (BitVec n) w) :
    Res (Vector (BitVec k) w') :=
  newLanes (lanes.map fun l => do
    ok (narrowScalar kind l (← Packed.extract (if l.self then self else other) l.idx)))

/-- Narrowing of a pack instruction. -/
inductive PackOp
  /-- PACKSS*: signed source, signed result. -/
  | ss
  /-- PACKUS*: signed source, unsigned result. -/
  | us
  deriving DecidableEq

/-- Meaning of the narrowing. -/
def PackOp.eval : PackOp → BitVec n → BitVec k
  | .ss => X86.narrowSS k
  | .us => X86.narrowUS k

/-- A pack instruction: register bits, bits of a source and a result lane. -/
structure PackInstr where
  total : Nat
  src : Nat
  dst : Nat
  op : PackOp
  deriving DecidableEq

/-- Pack instructions used by `saturating_downcast`. -/
def Instr.pack : Instr → Option PackInstr
  | .mm_packs_epi16 => some ⟨128, 16, 8, .ss⟩
  | .mm_packs_epi32 => some ⟨128, 32, 16, .ss⟩
  | .mm_packus_epi16 => some ⟨128, 16, 8, .us⟩
  | .mm_packus_epi32 => some ⟨128, 32, 16, .us⟩
  | .mm256_packs_epi16 => some ⟨256, 16, 8, .ss⟩
  | .mm256_packs_epi32 => some ⟨256, 32, 16, .ss⟩
  | .mm256_packus_epi16 => some ⟨256, 16, 8, .us⟩
  | .mm256_packus_epi32 => some ⟨256, 32, 16, .us⟩
  | _ => none

/-- Optimized `saturating_downcast` (src/arch/x86/intrin/downcast.rs:17-22, 73-78,
104-109, 127-132, 158-163, 189-194, 236-241, 267-272): `mm(self, other)`. -/
def downcastInstr (i : Instr) (self other : Vector (BitVec n) w) : Res (Vector (BitVec k) w') :=
  match i.pack with
  | none => panic
  | some p =>
    if p.src = n ∧ p.dst = k ∧ n * w = p.total ∧ k * w' = p.total then
      ok (X86.pack (128 / n) p.op.eval self other)
    else panic

end Faster
