import Verif.Intrin.Shuffle
/-
`src/intrin/destride.rs` and `src/arch/x86/intrin/destride.rs`.
-/
namespace Faster
open Res

variable {α : Type} {n w : Nat}

/-- `destride_two_polyfill!` (src/intrin/destride.rs:16-23) with lane list `l`. -/
def destrideTwoPolyfill (l : List Nat) (self other : Vector α w) :
    Res (Vector α w × Vector α w) := do
  let x ← newLanes (l.map (fun n => Packed.extract self n) ++ l.map (fun n => Packed.extract other n))
  let y ← newLanes (l.map (fun n => Packed.extract self (n + 1)) ++
    l.map (fun n => Packed.extract other (n + 1)))
  ok (x, y)

/-- `destride_four_polyfill!` (src/intrin/destride.rs:25-44) with lane list `l`. -/
def destrideFourPolyfill (l : List Nat) (self b c d : Vector α w) :
    Res (Vector α w × Vector α w × Vector α w × Vector α w) := do
  let lanes (k : Nat) : List (Res α) :=
    l.map (fun n => Packed.extract self (n + k)) ++ (l.map (fun n => Packed.extract b (n + k)) ++
      (l.map (fun n => Packed.extract c (n + k)) ++ l.map (fun n => Packed.extract d (n + k))))
  let v0 ← newLanes (lanes 0)
  let v1 ← newLanes (lanes 1)
  let v2 ← newLanes (lanes 2)
  let v3 ← newLanes (lanes 3)
  ok (v0, v1, v2, v3)

/-- `merge_halves` of 8-bit vectors, in whichever version is compiled. -/
def mergeHalves (blend : Bool) (c : Cfg) (a b : Vector (BitVec n) w) : Res (Vector (BitVec n) w) :=
  if blend then ok (mergeHalvesBlend a b) else mergeHalvesFallback c a b

/-- `u8x16::destride_two`, SSSE3 (src/arch/x86/intrin/destride.rs:11-22; the i8x16
version 71-82 is the same). SSSE3 does not imply SSE4.1, so `merge_halves` may
be either version. -/
def destrideTwoSsse3 (blend : Bool) (c : Cfg) (self other : Vector (BitVec 8) 16) :
    Res (Vector (BitVec 8) 16 × Vector (BitVec 8) 16) := do
  let a := X86.shuffleEpi8 self (ctlVec [0, 2, 4, 6, 8, 10, 12, 14, 1, 3, 5, 7, 9, 11, 13, 15])
  let b := X86.shuffleEpi8 other (ctlVec [1, 3, 5, 7, 9, 11, 13, 15, 0, 2, 4, 6, 8, 10, 12, 14])
  let m ← mergeHalves blend c b a
  let r := X86.shuffleEpi8 m (ctlVec [8, 9, 10, 11, 12, 13, 14, 15, 0, 1, 2, 3, 4, 5, 6, 7])
  let e ← mergeHalves blend c a b
  ok (e, r)

/-- `u8x32::destride_two`, AVX2 (src/arch/x86/intrin/destride.rs:39-54; the i8x32
version 99-114 is the same). -/
def destrideTwoAvx2 (self other : Vector (BitVec 8) 32) :
    Vector (BitVec 8) 32 × Vector (BitVec 8) 32 :=
  let a := X86.shuffleEpi8 self (ctlVec [0, 2, 4, 6, 8, 10, 12, 14, 1, 3, 5, 7, 9, 11, 13, 15,
    0, 2, 4, 6, 8, 10, 12, 14, 1, 3, 5, 7, 9, 11, 13, 15])
  let b := X86.shuffleEpi8 other (ctlVec [1, 3, 5, 7, 9, 11, 13, 15, 0, 2, 4, 6, 8, 10, 12, 14,
    1, 3, 5, 7, 9, 11, 13, 15, 0, 2, 4, 6, 8, 10, 12, 14])
  let aa : Vector (BitVec 8) 32 := reinterpret (X86.permute4x64 (reinterpret a) 0xD8)
  let bb : Vector (BitVec 8) 32 := reinterpret (X86.permute4x64 (reinterpret b) 0xD8)
  let c : Vector (BitVec 8) 32 :=
    reinterpret (X86.permute4x64 (reinterpret (mergeHalvesBlend aa bb)) 0x4E)
  (mergeHalvesBlend aa bb, c)

end Faster
