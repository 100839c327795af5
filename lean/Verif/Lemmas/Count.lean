import Verif.Lemmas.Bits
/-
Counting set bits of vectors.
-/
namespace Faster
open Res

variable {m n w w' : Nat}

/-- Specification: number of set bits of a word. -/
def onesOf (x : BitVec m) : Nat := (List.range m).countP fun k => x.getLsbD k

/-- Specification: number of set bits of a vector, lane by lane. -/
def vecOnes (v : Vector (BitVec m) w) : Nat := (v.toList.map onesOf).sum

theorem countP_bit (v : Vector (BitVec m) w) : ∀ k, k ≤ w →
    (List.range (k * m)).countP (bit v) = ((v.toList.take k).map onesOf).sum := by
  intro k
  induction k with
  | zero => intro _; simp
  | succ k ih =>
    intro hk
    rw [Nat.succ_mul, List.range_add, List.countP_append, ih (by omega), List.countP_map,
      List.take_add_one, List.map_append, List.sum_append, Vector.getElem?_toList,
      Vector.getElem?_eq_getElem (by omega)]
    congr 1
    simp only [Option.toList_some, List.map_cons, List.map_nil, List.sum_cons, List.sum_nil,
      Nat.add_zero, onesOf]
    apply List.countP_congr
    intro j hj
    rw [List.mem_range] at hj
    simp [bit_lane v (show k < w by omega) hj]

/-- The set bits of a vector can be counted position by position. -/
theorem vecOnes_eq (v : Vector (BitVec m) w) :
    vecOnes v = (List.range (w * m)).countP (bit v) := by
  rw [countP_bit v w (Nat.le_refl _), vecOnes, List.take_of_length_le (by simp)]

/-- Reinterpretation keeps the number of set bits. -/
theorem vecOnes_reinterpret (v : Vector (BitVec m) w) (h : w' * n = w * m) :
    vecOnes (reinterpret v : Vector (BitVec n) w') = vecOnes v := by
  rw [vecOnes_eq, vecOnes_eq, h]
  apply List.countP_congr
  intro p hp
  rw [List.mem_range] at hp
  rw [bit_reinterpret v (by omega)]

end Faster
