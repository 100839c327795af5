import Verif.Intrin.Bits
/-
Lemmas about the bit-level view of vectors.
-/
namespace Faster
open Res

variable {m n w w' : Nat}

theorem bit_lane (v : Vector (BitVec m) w) {i k : Nat} (hi : i < w) (hk : k < m) :
    bit v (i * m + k) = v[i].getLsbD k := by
  have hm : 0 < m := by omega
  have h1 : (i * m + k) / m = i := by
    rw [Nat.mul_comm, Nat.mul_add_div hm, Nat.div_eq_of_lt hk, Nat.add_zero]
  have h2 : (i * m + k) % m = k := by
    rw [Nat.mul_comm, Nat.mul_add_mod, Nat.mod_eq_of_lt hk]
  unfold bit
  rw [h1, h2, Vector.getElem?_eq_getElem hi]

theorem ext_bit {v v' : Vector (BitVec m) w} (h : ∀ p, p < w * m → bit v p = bit v' p) : v = v' := by
  apply Vector.ext
  intro i hi
  apply BitVec.eq_of_getLsbD_eq
  intro k hk
  have hp : i * m + k < w * m := by
    have := Nat.mul_le_mul_right m (Nat.succ_le_of_lt hi)
    rw [Nat.succ_mul] at this
    omega
  have := h _ hp
  rwa [bit_lane v hi hk, bit_lane v' hi hk] at this

theorem div_lt_of_lt_mul {p w m : Nat} (hp : p < w * m) : p / m < w :=
  Nat.div_lt_of_lt_mul (by rw [Nat.mul_comm]; exact hp)

theorem mod_lt_of_lt_mul {p w m : Nat} (hp : p < w * m) : p % m < m := by
  apply Nat.mod_lt
  rcases Nat.eq_zero_or_pos m with h | h
  · subst h; simp at hp
  · exact h

theorem bit_eq (v : Vector (BitVec m) w) {p : Nat} (hp : p < w * m) :
    bit v p = (v[p / m]'(div_lt_of_lt_mul hp)).getLsbD (p % m) := by
  unfold bit
  rw [Vector.getElem?_eq_getElem (div_lt_of_lt_mul hp)]

theorem getLsbD_reinterpret (v : Vector (BitVec m) w) {j k : Nat} (hj : j < w') (hk : k < n) :
    ((reinterpret v : Vector (BitVec n) w')[j]).getLsbD k = bit v (j * n + k) := by
  simp [reinterpret, hk]

theorem bit_reinterpret (v : Vector (BitVec m) w) {p : Nat} (hp : p < w' * n) :
    bit (reinterpret v : Vector (BitVec n) w') p = bit v p := by
  rw [bit_eq _ hp, getLsbD_reinterpret _ _ (mod_lt_of_lt_mul hp), Nat.div_add_mod']

theorem reinterpret_self (v : Vector (BitVec m) w) : (reinterpret v : Vector (BitVec m) w) = v :=
  ext_bit fun _ hp => bit_reinterpret v hp

theorem reinterpret_reinterpret {n' w'' : Nat} (v : Vector (BitVec m) w) (h : w'' * n' ≤ w' * n) :
    (reinterpret (reinterpret v : Vector (BitVec n) w') : Vector (BitVec n') w'') = reinterpret v :=
  ext_bit fun p hp => by
    rw [bit_reinterpret _ hp, bit_reinterpret _ hp, bit_reinterpret _ (Nat.lt_of_lt_of_le hp h)]

theorem reinterpret_inv (v : Vector (BitVec m) w) (h : w * m ≤ w' * n) :
    (reinterpret (reinterpret v : Vector (BitVec n) w') : Vector (BitVec m) w) = v := by
  rw [reinterpret_reinterpret v h, reinterpret_self]

/-- A narrow lane of a vector with wider lanes. -/
theorem reinterpret_narrow {r : Nat} (v : Vector (BitVec m) w) (hr : m = r * n) (hr0 : 0 < r)
    {i : Nat} (hi : i < w') (hiw : i / r < w) :
    (reinterpret v : Vector (BitVec n) w')[i] = (v[i / r]).extractLsb' (i % r * n) n := by
  apply BitVec.eq_of_getLsbD_eq
  intro k hk
  have hlt : i % r * n + k < m := by
    have := Nat.mul_le_mul_right n (Nat.succ_le_of_lt (Nat.mod_lt i hr0))
    rw [Nat.succ_mul] at this
    omega
  have hpos : i * n + k = i / r * m + (i % r * n + k) := by
    rw [hr, ← Nat.mul_assoc, ← Nat.add_assoc, ← Nat.add_mul, Nat.div_add_mod']
  rw [getLsbD_reinterpret _ _ hk, hpos, bit_lane v hiw hlt]
  simp [hk]

/-- A part of a wide lane of a vector with narrower lanes. -/
theorem reinterpret_wide {r : Nat} (v : Vector (BitVec n) w) (hr : m = r * n) {j t : Nat}
    (hj : j < w') (ht : t < r) (hjt : j * r + t < w) :
    ((reinterpret v : Vector (BitVec m) w')[j]).extractLsb' (t * n) n = v[j * r + t] := by
  apply BitVec.eq_of_getLsbD_eq
  intro k hk
  have hlt : t * n + k < m := by
    have := Nat.mul_le_mul_right n (Nat.succ_le_of_lt ht)
    rw [Nat.succ_mul] at this
    omega
  have hpos : j * m + (t * n + k) = (j * r + t) * n + k := by
    rw [hr, ← Nat.mul_assoc, ← Nat.add_assoc, ← Nat.add_mul]
  rw [BitVec.getLsbD_extractLsb', getLsbD_reinterpret _ _ hlt, hpos, bit_lane v hjt hk]
  simp [hk]

/-- Moving whole wide lanes moves groups of narrow lanes. -/
theorem reinterpret_copy {r q k W : Nat} (u : Vector (BitVec m) k) (v : Vector (BitVec n) w)
    (hr : m = r * n) (hr0 : 0 < r) {i : Nat} (hi : i < w') (hik : i / r < k) (hq : q < W)
    (hqw : q * r + i % r < w) (hcopy : u[i / r] = (reinterpret v : Vector (BitVec m) W)[q]) :
    (reinterpret u : Vector (BitVec n) w')[i] = v[q * r + i % r] := by
  rw [reinterpret_narrow u hr hr0 hi hik, hcopy,
    reinterpret_wide v hr hq (Nat.mod_lt _ hr0) hqw]

end Faster
