import Verif.Lemmas.Count
import Verif.Props.Shuffle
/-
Reinterpretation (`be_u8s`, `be_i32s`, …): C52.

All methods of `Transmute` are `transmute` between two register types of equal
size (src/intrin/transmute.rs:50-98, src/arch/x86/intrin/transmute.rs:15-29),
modelled by `reinterpret` (little endian).
-/
namespace Faster
open Res

variable {m n w w' s : Nat}

/-- C52: reinterpreting as any lane type of the same total size and back gives the
original vector. -/
theorem C52_roundtrip (v : Vector (BitVec m) w) (h : w * m = w' * n) :
    (reinterpret (reinterpret v : Vector (BitVec n) w') : Vector (BitVec m) w) = v :=
  reinterpret_inv v (by omega)

/-- C52: the number of set bits is preserved. -/
theorem C52_set_bits (v : Vector (BitVec m) w) (h : w * m = w' * n) :
    vecOnes (reinterpret v : Vector (BitVec n) w') = vecOnes v :=
  vecOnes_reinterpret v (by omega)

/-- C52: lane `i` of the byte view is byte `i mod SIZE` of lane `i / SIZE`. -/
theorem C52_bytes (v : Vector (BitVec m) w) (hm : m = 8 * s) (hs : 0 < s) {i : Nat} (hi : i < w * s) :
    (reinterpret v : Vector (BitVec 8) (w * s))[i] =
      byte (v[i / s]'(div_lt_of_lt_mul hi)) (i % s) :=
  reinterpret_narrow v (by omega) hs hi _

/-- C52: going through a third lane type makes no difference. -/
theorem C52_compose {n' w'' : Nat} (v : Vector (BitVec m) w) (h : w * m = w' * n)
    (h' : w * m = w'' * n') :
    (reinterpret (reinterpret v : Vector (BitVec n) w') : Vector (BitVec n') w'') = reinterpret v :=
  reinterpret_reinterpret v (by omega)

/-- C52: reinterpretation is injective. -/
theorem C52_injective {u v : Vector (BitVec m) w} (h : w * m = w' * n)
    (e : (reinterpret u : Vector (BitVec n) w') = reinterpret v) : u = v := by
  rw [← C52_roundtrip u h, e, C52_roundtrip v h]

/-- Same lane size (`be_i8s` of `u8x16`, …): lanes are unchanged. -/
theorem C52_same_size (v : Vector (BitVec m) w) : (reinterpret v : Vector (BitVec m) w) = v :=
  reinterpret_self v

example : (reinterpret #v[0x04030201#32, 0x08070605#32] : Vector (BitVec 8) 8) =
    #v[1#8, 2#8, 3#8, 4#8, 5#8, 6#8, 7#8, 8#8] := by decide +kernel
example : vecOnes #v[0xFF#16, 1#16] = 9 := by decide +kernel

end Faster
