import Verif.Intrin.Round
import Mathlib.Order.Monotone.Basic
import Mathlib.Tactic.Ring
import Mathlib.Tactic.Linarith
import Mathlib.Tactic.NormNum
/-
The magnitude bits of a float as a multiple of the smallest subnormal number, and
what rounding does to it.
-/
namespace Faster
open Res

/-- Value of magnitude bits in units of the smallest subnormal number. -/
def funits (m mag : Nat) : Nat :=
  if mag / 2 ^ m = 0 then mag else (2 ^ m + mag % 2 ^ m) * 2 ^ (mag / 2 ^ m - 1)

theorem funits_mk {m e f : Nat} (hf : f < 2 ^ m) :
    funits m (e * 2 ^ m + f) = if e = 0 then f else (2 ^ m + f) * 2 ^ (e - 1) := by
  have h0 : 0 < 2 ^ m := Nat.pow_pos (by omega)
  have h1 : (e * 2 ^ m + f) / 2 ^ m = e := by
    rw [Nat.mul_comm, Nat.mul_add_div h0, Nat.div_eq_of_lt hf, Nat.add_zero]
  have h2 : (e * 2 ^ m + f) % 2 ^ m = f := by
    rw [Nat.mul_comm, Nat.mul_add_mod, Nat.mod_eq_of_lt hf]
  unfold funits
  rw [h1, h2]
  split
  · rename_i h; subst h; simp
  · rfl

theorem mag_split (m mag : Nat) : mag = (mag / 2 ^ m) * 2 ^ m + mag % 2 ^ m := by
  rw [Nat.mul_comm]; exact (Nat.div_add_mod mag (2 ^ m)).symm

theorem funits_lt_succ (m mag : Nat) : funits m mag < funits m (mag + 1) := by
  have h0 : 0 < 2 ^ m := Nat.pow_pos (by omega)
  have hf : mag % 2 ^ m < 2 ^ m := Nat.mod_lt _ h0
  have hs := mag_split m mag
  generalize mag / 2 ^ m = e at hs
  generalize mag % 2 ^ m = f at hs hf
  subst hs
  by_cases h : f + 1 < 2 ^ m
  · rw [show e * 2 ^ m + f + 1 = e * 2 ^ m + (f + 1) by omega, funits_mk hf, funits_mk h]
    split
    · omega
    · exact Nat.mul_lt_mul_of_pos_right (by omega) (Nat.pow_pos (by omega))
  · have hf' : f = 2 ^ m - 1 := by omega
    rw [show e * 2 ^ m + f + 1 = (e + 1) * 2 ^ m + 0 by rw [Nat.add_mul]; omega,
      funits_mk hf, funits_mk h0, if_neg (by omega : ¬ e + 1 = 0), Nat.add_zero, Nat.add_sub_cancel]
    split
    · rename_i he; subst he; simp; omega
    · have : 2 ^ e = 2 * 2 ^ (e - 1) := by
        rw [← Nat.pow_succ']; congr 1; omega
      rw [this, ← Nat.mul_assoc]
      exact Nat.mul_lt_mul_of_pos_right (by omega) (Nat.pow_pos (by omega))

theorem funits_strictMono (m : Nat) : StrictMono (funits m) :=
  strictMono_nat_of_lt_succ (funits_lt_succ m)

theorem funits_zero (m : Nat) : funits m 0 = 0 := by simp [funits]

/-- The number one. -/
theorem funits_one (m : Nat) {b : Nat} (hb : 0 < b) : funits m (b * 2 ^ m) = 2 ^ (m + (b - 1)) := by
  have := funits_mk (m := m) (e := b) (f := 0) (Nat.pow_pos (by omega))
  rw [Nat.add_zero, if_neg (by omega), Nat.add_zero, ← Nat.pow_add] at this
  exact this

theorem carries_exact (d : RoundDir) (neg odd : Bool) {u : Nat} (hu : 0 < u) :
    d.carries neg odd true (compare (2 * 0) u) = false := by
  have : compare (2 * 0) u = .lt := by rw [Nat.compare_eq_lt]; omega
  rw [this]
  cases d <;> cases neg <;> rfl

theorem compare_mono {f : Nat → Nat} (hf : StrictMono f) (a b : Nat) :
    compare (f a) (f b) = compare a b := by
  rcases Nat.lt_trichotomy a b with h | h | h
  · rw [Nat.compare_eq_lt.2 h, Nat.compare_eq_lt.2 (hf h)]
  · subst h; rw [Nat.compare_eq_eq.2 rfl, Nat.compare_eq_eq.2 rfl]
  · rw [Nat.compare_eq_gt.2 h, Nat.compare_eq_gt.2 (hf h)]

theorem compare_mul {c : Nat} (hc : 0 < c) (a b : Nat) : compare (a * c) (b * c) = compare a b :=
  compare_mono (f := (· * c)) (fun _ _ h => Nat.mul_lt_mul_of_pos_right h hc) a b

/-- Adding `2 ^ k` to magnitude bits adds `2 ^ k` units of the last place, also when it
carries into the exponent. -/
theorem funits_add {m e f k : Nat} (he : e ≠ 0) (hf : f < 2 ^ m) (hk : k ≤ m) (hd : 2 ^ k ∣ f) :
    funits m (e * 2 ^ m + f + 2 ^ k) = (2 ^ m + f + 2 ^ k) * 2 ^ (e - 1) := by
  have h0 : 0 < 2 ^ m := Nat.pow_pos (by omega)
  by_cases h : f + 2 ^ k < 2 ^ m
  · rw [Nat.add_assoc, funits_mk h, if_neg he, Nat.add_assoc]
  · have hfk : f + 2 ^ k = 2 ^ m := by
      obtain ⟨x, rfl⟩ := hd
      obtain ⟨y, rfl⟩ : ∃ y, m = k + y := ⟨m - k, by omega⟩
      rw [Nat.pow_add] at hf h ⊢
      have h1 : x < 2 ^ y := Nat.lt_of_mul_lt_mul_left hf
      have h2 : 2 ^ k * (x + 1) ≤ 2 ^ k * 2 ^ y := Nat.mul_le_mul_left _ h1
      rw [Nat.mul_add] at h2
      omega
    rw [Nat.add_assoc, hfk, show e * 2 ^ m + 2 ^ m = (e + 1) * 2 ^ m + 0 by rw [Nat.add_mul]; omega,
      funits_mk h0, if_neg (by omega : ¬ e + 1 = 0), Nat.add_zero, Nat.add_sub_cancel,
      Nat.add_assoc, hfk]
    have : 2 ^ e = 2 * 2 ^ (e - 1) := by
      rw [← Nat.pow_succ']; congr 1; omega
    rw [this, ← Nat.mul_assoc]
    congr 1; omega

/-- Result of rounding: the integer part, plus one if the direction says so. -/
theorem roundMag_funits (m b : Nat) (hb : 1 < b) (d : RoundDir)
    (neg : Bool) (mag u q r : Nat) (hu : u = 2 ^ (m + (b - 1))) (hq : q = funits m mag / u)
    (hr : r = funits m mag % u) :
    funits m (roundMag m b d neg mag) =
      (q + if d.carries neg (q % 2 == 1) (r == 0) (compare (2 * r) u) then 1 else 0) * u := by
  have hu0 : 0 < u := by rw [hu]; exact Nat.pow_pos (by omega)
  have h0 : 0 < 2 ^ m := Nat.pow_pos (by omega)
  have hf : mag % 2 ^ m < 2 ^ m := Nat.mod_lt _ h0
  have hone : funits m (b * 2 ^ m) = u := by rw [hu]; exact funits_one m (by omega)
  have hs := mag_split m mag
  have hval := funits_mk (e := mag / 2 ^ m) hf
  rw [← hs] at hval
  unfold roundMag
  simp only
  split
  · -- already an integer
    rename_i he
    rw [if_neg (by omega)] at hval
    obtain ⟨j, hj⟩ : ∃ j, mag / 2 ^ m - 1 = m + (b - 1) + j := ⟨mag / 2 ^ m - 1 - (m + (b - 1)), by omega⟩
    rw [hj, Nat.pow_add, ← hu] at hval
    have hval' : funits m mag = (2 ^ m + mag % 2 ^ m) * 2 ^ j * u := by rw [hval]; ring
    have hr0 : r = 0 := by rw [hr, hval']; exact Nat.mul_mod_left _ _
    have hq0 : q = (2 ^ m + mag % 2 ^ m) * 2 ^ j := by rw [hq, hval', Nat.mul_div_cancel _ hu0]
    rw [hr0, show ((0 : Nat) == 0) = true from rfl, carries_exact _ _ _ hu0]
    simp [hval', hq0]
  · rename_i hem
    split
    · -- below one
      rename_i he
      have hlt : mag < b * 2 ^ m := by
        rw [Nat.div_lt_iff_lt_mul h0] at he; exact he
      have hlt' : funits m mag < u := by rw [← hone]; exact funits_strictMono m hlt
      have hq0 : q = 0 := by rw [hq]; exact Nat.div_eq_of_lt hlt'
      have hr0 : r = funits m mag := by rw [hr]; exact Nat.mod_eq_of_lt hlt'
      have hz : (r == 0) = (mag == 0) := by
        have := (funits_strictMono m).injective.eq_iff (a := mag) (b := 0)
        rw [funits_zero] at this
        rw [hr0, Bool.eq_iff_iff, beq_iff_eq, beq_iff_eq, this]
      have hhalf : 2 * funits m ((b - 1) * 2 ^ m) = u := by
        rw [funits_one m (by omega), hu, ← Nat.pow_succ']; congr 1; omega
      have hc : compare (2 * r) u = compare mag ((b - 1) * 2 ^ m) := by
        rw [hr0, ← hhalf, Nat.mul_comm 2, Nat.mul_comm 2, compare_mul (by omega),
          compare_mono (funits_strictMono m)]
      rw [hq0, hz, hc]
      simp only [Nat.zero_mod]
      rw [show ((0 : Nat) == 1) = false from rfl]
      split
      · rw [hone]; omega
      · rw [funits_zero]; omega
    · -- from one on
      rename_i he
      generalize mag / 2 ^ m = e at *
      generalize mag % 2 ^ m = f at *
      obtain ⟨k, hk⟩ : ∃ k, b + m - e = k + 1 := ⟨b + m - e - 1, by omega⟩
      rw [hk]
      rw [if_neg (by omega)] at hval
      have hkm : k + 1 ≤ m := by omega
      have hue : u = 2 ^ (k + 1) * 2 ^ (e - 1) := by
        rw [hu, ← Nat.pow_add]; congr 1; omega
      have hp0 : 0 < 2 ^ (e - 1) := Nat.pow_pos (by omega)
      have hdm : 2 ^ (k + 1) ∣ 2 ^ m := Nat.pow_dvd_pow 2 hkm
      have hq' : q = (2 ^ m + f) / 2 ^ (k + 1) := by
        rw [hq, hval, hue, Nat.mul_div_mul_right _ _ hp0]
      have hmodf : (2 ^ m + f) % 2 ^ (k + 1) = f % 2 ^ (k + 1) := by
        obtain ⟨c, hc⟩ := hdm
        rw [hc, Nat.mul_add_mod]
      have hr' : r = f % 2 ^ (k + 1) * 2 ^ (e - 1) := by
        rw [hr, hval, hue, Nat.mul_mod_mul_right, hmodf]
      have hmag : mag % 2 ^ (k + 1) = f % 2 ^ (k + 1) := by
        obtain ⟨c, hc⟩ := hdm
        rw [hs, hc, Nat.mul_left_comm, Nat.mul_add_mod]
      have hz : (r == 0) = (mag % 2 ^ (k + 1) == 0) := by
        rw [hr', hmag, Bool.eq_iff_iff, beq_iff_eq, beq_iff_eq, Nat.mul_eq_zero]
        omega
      have hc : compare (2 * r) u = compare (mag % 2 ^ (k + 1)) (2 ^ (k + 1 - 1)) := by
        rw [hmag, hr', hue, ← Nat.mul_assoc, compare_mul hp0, Nat.add_sub_cancel,
          Nat.pow_succ', Nat.mul_comm 2, Nat.mul_comm 2 (2 ^ k), compare_mul (by omega)]
      rw [hz, hc, ← hq']
      have hfl : f - f % 2 ^ (k + 1) < 2 ^ m := by omega
      have hle : f % 2 ^ (k + 1) ≤ f := Nat.mod_le _ _
      have hdiv : 2 ^ (k + 1) ∣ f - f % 2 ^ (k + 1) := Nat.dvd_sub_mod f
      have hbase : mag - mag % 2 ^ (k + 1) = e * 2 ^ m + (f - f % 2 ^ (k + 1)) := by
        rw [hmag]; omega
      have hqu : q * 2 ^ (k + 1) = 2 ^ m + (f - f % 2 ^ (k + 1)) := by
        have := Nat.div_add_mod (2 ^ m + f) (2 ^ (k + 1))
        rw [hmodf, ← hq', Nat.mul_comm] at this
        omega
      rw [hbase, hue, ← Nat.mul_assoc]
      split
      · rw [funits_add (by omega) hfl hkm hdiv, ← hqu]; ring
      · rw [funits_mk hfl, if_neg (by omega), ← hqu]; ring

end Faster
