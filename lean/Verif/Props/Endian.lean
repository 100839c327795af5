import Verif.Intrin.Endian
import Verif.Lemmas.Bits
import Verif.Props.Collect
import Verif.Props.Shuffle
/-
Reinterpretation and byte orders on targets of either endianness: C113.
-/
namespace Faster
open Res SIMDIterable SIMDIterator

variable {m n w w' s k : Nat}

/-- The bytes of a lane, least significant first. -/
def bytesLe (x : BitVec n) : List (BitVec 8) := (List.range (n / 8)).map (byte x)

theorem memory_little (v : Vector (BitVec n) w) : memory false v = v.toList.flatMap bytesLe := rfl

theorem memory_big (hn : n = 8 * s) (v : Vector (BitVec n) w) :
    memory true v = memory false (v.map swapBytesScalar) := by
  unfold memory
  rw [Vector.toList_map, List.flatMap_map]
  congr 1
  funext x
  apply List.map_congr_left
  intro t ht
  have h := swapBytesScalar_byte hn x (t := t) (by simpa [hn] using ht)
  simp only [byte] at h
  have hs : n / 8 = s := by omega
  simpa [hs] using h.symm

theorem getElem?_flatMap_const {α β : Type} (f : α → List β) (hf : ∀ x, (f x).length = k)
    (hk : 0 < k) (l : List α) (p : Nat) :
    (l.flatMap f)[p]? = l[p / k]?.bind fun x => (f x)[p % k]? := by
  induction l generalizing p with
  | nil => simp
  | cons x l ih =>
    rw [List.flatMap_cons]
    by_cases hp : p < k
    · rw [List.getElem?_append_left (by rw [hf]; exact hp), Nat.div_eq_of_lt hp, Nat.mod_eq_of_lt hp]
      rfl
    · obtain ⟨q, rfl⟩ : ∃ q, p = q + k := ⟨p - k, by omega⟩
      rw [List.getElem?_append_right (by rw [hf]; omega), hf, Nat.add_sub_cancel, ih,
        Nat.add_div_right _ hk, Nat.add_mod_right]
      rfl

/-- The bits of the memory of a vector. -/
theorem memory_bit (hn : n = 8 * s) (hs : 0 < s) (v : Vector (BitVec n) w) (q : Nat) {r : Nat}
    (hr : r < 8) : ((memory false v).getD q 0).getLsbD r = bit v (q * 8 + r) := by
  have h8 : n / 8 = s := by omega
  rw [memory_little, List.getD_eq_getElem?_getD, getElem?_flatMap_const bytesLe (k := s)
    (by simp [bytesLe, h8]) hs]
  have h1 : (q * 8 + r) / n = q / s := by
    rw [hn, ← Nat.div_div_eq_div_mul]
    congr 1
    omega
  have h2 : (q * 8 + r) % n = q % s * 8 + r := by
    rw [hn, Nat.mod_mul]
    rw [show (q * 8 + r) % 8 = r by omega, show (q * 8 + r) / 8 = q by omega]
    omega
  unfold bit
  rw [h1, h2]
  have hm := Nat.mod_lt q hs
  by_cases hq : q / s < w
  · simp [hq, bytesLe, h8, hm, byte, hr]
  · rw [Vector.getElem?_eq_none (by omega), List.getElem?_eq_none (by simpa using hq)]
    simp

theorem ofMemory_bit (hn : n = 8 * s) (l : List (BitVec 8)) {j k : Nat} (hj : j < w) (hk : k < n) :
    ((ofMemory false l : Vector (BitVec n) w)[j]).getLsbD k =
      (l.getD ((j * n + k) / 8) 0).getLsbD ((j * n + k) % 8) := by
  have h1 : (j * n + k) / 8 = j * (n / 8) + k / 8 := by
    have : n / 8 = s := by omega
    rw [this, hn, Nat.mul_left_comm]
    omega
  have h2 : (j * n + k) % 8 = k % 8 := by
    rw [hn, Nat.mul_left_comm]
    omega
  rw [h1, h2]
  simp [ofMemory, hk]

theorem ofMemory_big (hn : n = 8 * s) (l : List (BitVec 8)) :
    (ofMemory true l : Vector (BitVec n) w) = (ofMemory false l).map swapBytesScalar := by
  apply Vector.ext
  intro j hj
  apply BitVec.eq_of_getLsbD_eq
  intro k hk
  have h8 : n / 8 = s := by omega
  have h3 : (s - 1 - k / 8) * 8 + k % 8 < n := by omega
  have h1 : ((s - 1 - k / 8) * 8 + k % 8) / 8 = s - 1 - k / 8 := by omega
  have h2 : ((s - 1 - k / 8) * 8 + k % 8) % 8 = k % 8 := by omega
  simp [ofMemory, swapBytesScalar, hk, h8, h3, h1, h2]

/-- On little-endian targets this is the reinterpretation used elsewhere. -/
theorem transmuteOn_little (hm : m = 8 * s) (hs : 0 < s) (hn : n = 8 * k) (v : Vector (BitVec m) w) :
    (transmuteOn false v : Vector (BitVec n) w') = reinterpret v := by
  apply Vector.ext
  intro j hj
  apply BitVec.eq_of_getLsbD_eq
  intro i hi
  rw [getLsbD_reinterpret v hj hi]
  unfold transmuteOn
  rw [ofMemory_bit hn _ hj hi, memory_bit hm hs v _ (Nat.mod_lt _ (by omega)), Nat.div_add_mod']

/-- On big-endian targets it is the same between byte-swapped lanes. -/
theorem transmuteOn_big (hm : m = 8 * s) (hs : 0 < s) (hn : n = 8 * k) (v : Vector (BitVec m) w) :
    (transmuteOn true v : Vector (BitVec n) w') =
      (reinterpret (v.map swapBytesScalar)).map swapBytesScalar := by
  unfold transmuteOn
  rw [ofMemory_big hn, memory_big hm, ← transmuteOn_little hm hs hn]
  rfl

theorem map_swap_swap (hn : n = 8 * s) (v : Vector (BitVec n) w) :
    (v.map swapBytesScalar).map swapBytesScalar = v := by
  apply Vector.ext
  intro i hi
  simp [swapBytesScalar_swap hn]

/-- **C113**: reinterpreting as any lane type of the same total size and back gives the original
vector, on targets of either endianness. -/
theorem C113_roundtrip (big : Bool) (hm : m = 8 * s) (hs : 0 < s) (hn : n = 8 * k) (hk : 0 < k)
    (h : w * m = w' * n) (v : Vector (BitVec m) w) :
    (transmuteOn big (transmuteOn big v : Vector (BitVec n) w') : Vector (BitVec m) w) = v := by
  cases big
  · rw [transmuteOn_little hn hk hm, transmuteOn_little hm hs hn, reinterpret_inv v (by omega)]
  · rw [transmuteOn_big hn hk hm, transmuteOn_big hm hs hn, map_swap_swap hn,
      reinterpret_inv _ (by omega), map_swap_swap hm]

/-- **C113**: the bytes in memory after `to_le` are the bytes of the lanes from the least
significant one, after `to_be` from the most significant one, on targets of either
endianness. -/
theorem C113_memory (big : Bool) (hm : m = 8 * s) (v : Vector (BitVec m) w) :
    memory big (toLe big (Vector.map swapBytesScalar) v) = v.toList.flatMap bytesLe ∧
    memory big (toBe big (Vector.map swapBytesScalar) v) =
      v.toList.flatMap fun x => (bytesLe x).reverse := by
  have hrev : ∀ x : BitVec m, bytesLe (swapBytesScalar x) = (bytesLe x).reverse := by
    intro x
    have h8 : m / 8 = s := by omega
    apply List.ext_getElem
    · simp [bytesLe]
    · intro t h1 h2
      have ht : t < s := by simpa [bytesLe, h8] using h1
      simp [bytesLe, h8, swapBytesScalar_byte hm x ht]
  cases big
  · refine ⟨rfl, ?_⟩
    simp only [toBe, memory_little, Vector.toList_map, List.flatMap_map, hrev, Bool.false_eq_true,
      if_false]
  · simp only [toLe, toBe, if_true, memory_big hm, map_swap_swap hm, memory_little,
      Vector.toList_map, List.flatMap_map, hrev, and_self]

/-- The parts of a lane, least significant first. -/
def partsLe (k n : Nat) (x : BitVec m) : List (BitVec n) :=
  (List.range k).map fun j => x.extractLsb' (j * n) n

/-- Narrow lanes of a vector are the parts of its lanes in order. -/
theorem reinterpret_parts (hk : 0 < k) (hm : m = k * n) (v : Vector (BitVec m) w) :
    (reinterpret v : Vector (BitVec n) (w * k)).toList = v.toList.flatMap (partsLe k n) := by
  apply List.ext_getElem?
  intro p
  rw [getElem?_flatMap_const (partsLe k n) (k := k) (by simp [partsLe]) hk]
  by_cases hp : p < w * k
  · have h1 := div_lt_of_lt_mul hp
    have h2 := Nat.mod_lt p hk
    simp [hp, h1, h2, partsLe, reinterpret_narrow v hm hk hp h1]
  · have h1 : w ≤ p / k := (Nat.le_div_iff_mul_le hk).2 (by omega)
    rw [List.getElem?_eq_none (by simpa using hp), List.getElem?_eq_none (by simpa using h1)]
    rfl

/-- What the tests collect, for any slice: the parts of every element in order; on
big-endian targets each part with its bytes reversed. -/
theorem C113_collect (big : Bool) (hk : 0 < k) (hn : n = 8 * s) (hs : 0 < s) (hm : m = k * n) (c : Cfg)
    (fuel : Nat) (data : List (BitVec m)) (hw : 0 < w)
    (hlen : data.length + w < c.usize) (hlen' : (data.length / w + 1) * (w * k) < c.usize)
    (hvec : w * m < c.usize) (hfuel : data.length / w < fuel) :
    bitcastMap (w * k) n big (Vector.map swapBytesScalar : Vector (BitVec m) w → _) c fuel data =
      ok ((data.flatMap fun x => (partsLe k n x).map
        (if big then swapBytesScalar else id)).map some) := by
  have hm8 : m = 8 * (k * s) := by rw [hm, hn, Nat.mul_left_comm]
  have hks : 0 < k * s := Nat.mul_pos hk hs
  have hle : w * (m / 8) ≤ w * m := Nat.mul_le_mul_left _ (Nat.div_le_self m 8)
  have hf : ∀ v : Vector (BitVec m) w,
      (transmuteOn big (toLe big (Vector.map swapBytesScalar) v) : Vector (BitVec n) (w * k)).toList =
      v.toList.flatMap fun x => (partsLe k n x).map (if big then swapBytesScalar else id) := by
    intro v
    cases big
    · simp only [toLe, Bool.false_eq_true, if_false, List.map_id]
      rw [transmuteOn_little hm8 hks hn, reinterpret_parts hk hm]
    · simp only [toLe, if_true]
      rw [transmuteOn_big hm8 hks hn, map_swap_swap hm8, Vector.toList_map, reinterpret_parts hk hm,
        List.map_flatMap]
  unfold bitcastMap
  have := C06_widening_collect c fuel data (Packed.splat 0#m : Vector (BitVec m) w)
    (fun x => (partsLe k n x).map (if big then swapBytesScalar else id))
    (fun v => (transmuteOn big (toLe big (Vector.map swapBytesScalar) v) : Vector (BitVec n) (w * k)))
    (k := k) (by simp [partsLe]) hf hw hk rfl (by simp only [Packable.size]; omega)
    (by simp only [Packable.size]; rw [hm8, hn, Nat.mul_div_cancel_left _ (by decide), Nat.mul_div_cancel_left _ (by decide)])
    hlen hlen' (by simp only [Packable.size]; omega) hfuel
  unfold pureFn at this
  rw [this]
  rfl

/-- **C113**: the three tests on any slice of a little-endian target. -/
theorem C113_bitcast_partial (hk : 0 < k) (hn : n = 8 * s) (hs : 0 < s) (hm : m = k * n) (c : Cfg)
    (fuel : Nat) (data : List (BitVec m)) (hw : 0 < w)
    (hlen : data.length + w < c.usize) (hlen' : (data.length / w + 1) * (w * k) < c.usize)
    (hvec : w * m < c.usize) (hfuel : data.length / w < fuel) :
    bitcastMap (w * k) n false (Vector.map swapBytesScalar : Vector (BitVec m) w → _) c fuel data =
      ok ((data.flatMap (partsLe k n)).map some) := by
  rw [C113_collect false hk hn hs hm c fuel data hw hlen hlen' hvec hfuel]
  simp

/-- **C113**: `bitcast_map_width_octuples` on targets of either endianness: the bytes of every
element, least significant first. -/
theorem C113_octuples (big : Bool) (hs : 0 < s) (hm : m = 8 * s) (c : Cfg) (fuel : Nat)
    (data : List (BitVec m)) (hw : 0 < w)
    (hlen : data.length + w < c.usize) (hlen' : (data.length / w + 1) * (w * s) < c.usize)
    (hvec : w * m < c.usize) (hfuel : data.length / w < fuel) :
    bitcastMap (w * s) 8 big (Vector.map swapBytesScalar : Vector (BitVec m) w → _) c fuel data =
      ok ((data.flatMap bytesLe).map some) := by
  have h8 : m / 8 = s := by omega
  rw [C113_collect big hs (n := 8) (s := 1) rfl (by decide) (by omega) c fuel data hw hlen hlen' hvec
    hfuel]
  have hid : (if big then swapBytesScalar else id : BitVec 8 → BitVec 8) = id := by
    cases big
    · rfl
    · funext x
      apply ext_byte (s := 1) rfl
      intro t ht
      simp only [if_true]
      rw [swapBytesScalar_byte (s := 1) rfl x ht]
      obtain rfl : t = 0 := by omega
      rfl
  rw [hid]
  congr 2
  unfold bytesLe partsLe byte
  simp [h8]

/-- **C113** fails: on a big-endian target `bitcast_map_width_doubles` collects other numbers than
the test expects. -/
theorem C113_false :
    bitcastMap 4 32 true (Vector.map swapBytesScalar : Vector (BitVec 64) 2 → _) debug64 9
      [1, 2, 3, 4, 5] =
      ok ([0x01000000, 0, 0x02000000, 0, 0x03000000, 0, 0x04000000, 0, 0x05000000, 0].map some) ∧
    ([1, 2, 3, 4, 5].flatMap fun x : BitVec 64 => partsLe 2 32 x) =
      [1, 0, 2, 0, 3, 0, 4, 0, 5, 0] := by decide +kernel

/-- The tests themselves. -/
example : bitcastMap 4 32 false (Vector.map swapBytesScalar : Vector (BitVec 64) 2 → _) debug64 9
      [1, 2, 3, 4, 5] = ok ([1, 0, 2, 0, 3, 0, 4, 0, 5, 0].map some) ∧
    bitcastMap 8 16 false (Vector.map swapBytesScalar : Vector (BitVec 64) 2 → _) debug64 9
      [1, 2] = ok ([1, 0, 0, 0, 2, 0, 0, 0].map some) ∧
    bitcastMap 16 8 true (Vector.map swapBytesScalar : Vector (BitVec 64) 2 → _) debug64 9
      [0x0102030405060708] = ok ([8, 7, 6, 5, 4, 3, 2, 1].map some) := by decide +kernel

end Faster
