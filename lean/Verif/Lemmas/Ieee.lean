import Verif.Intrin.Ieee
/-
Rounding to the nearest float, in units: `roundUnits` is nearest among all magnitudes,
and even in a tie.
-/
namespace Faster

/-- `roundEven` is within one half, and even in a tie. -/
theorem roundEven_bounds (p : Nat) {d : Nat} (hd : 0 < d) :
    2 * p ≤ d * (2 * roundEven p d + 1) ∧
    (2 * p = d * (2 * roundEven p d + 1) → roundEven p d % 2 = 0) ∧
    (0 < roundEven p d → d * (2 * roundEven p d - 1) ≤ 2 * p) ∧
    (d * (2 * roundEven p d - 1) = 2 * p → 0 < roundEven p d → roundEven p d % 2 = 0) := by
  have hp := Nat.div_add_mod p d
  have hm := Nat.mod_lt p hd
  unfold roundEven
  generalize p / d = q at *
  generalize p % d = r at *
  split
  · rename_i h
    have e1 : d * (2 * q + 1) = 2 * (d * q) + d := by ring
    rw [e1]
    refine ⟨by omega, by omega, fun h0 => ?_, fun h1 h0 => ?_⟩
    · have e2 : d * (2 * q - 1) + d = 2 * (d * q) := by
        rw [show d * (2 * q - 1) + d = d * (2 * q - 1 + 1) by ring, show 2 * q - 1 + 1 = 2 * q by omega]
        ring
      omega
    · have e2 : d * (2 * q - 1) + d = 2 * (d * q) := by
        rw [show d * (2 * q - 1) + d = d * (2 * q - 1 + 1) by ring, show 2 * q - 1 + 1 = 2 * q by omega]
        ring
      omega
  · rename_i h
    have e1 : d * (2 * (q + 1) + 1) = 2 * (d * q) + 3 * d := by ring
    have e2 : d * (2 * (q + 1) - 1) = 2 * (d * q) + d := by
      rw [show 2 * (q + 1) - 1 = 2 * q + 1 by omega]; ring
    rw [e1, e2]
    refine ⟨by omega, by omega, fun _ => by omega, fun h1 _ => ?_⟩
    have : 2 * r = d := by omega
    omega

theorem roundEven_ge {p d a : Nat} (hd : 0 < d) (h : d * a ≤ p) : a ≤ roundEven p d := by
  have : a ≤ p / d := (Nat.le_div_iff_mul_le hd).2 (by rw [Nat.mul_comm]; exact h)
  unfold roundEven
  split <;> omega

theorem roundEven_le {p d a : Nat} (hd : 0 < d) (h : p < d * a) : roundEven p d ≤ a := by
  have : p / d < a := (Nat.div_lt_iff_lt_mul hd).2 (by rw [Nat.mul_comm]; exact h)
  unfold roundEven
  split <;> omega

/-- An integer is its own rounding. -/
theorem roundEven_exact {d : Nat} (hd : 0 < d) (a : Nat) : roundEven (d * a) d = a := by
  unfold roundEven
  rw [Nat.mul_mod_right, Nat.mul_div_cancel_left _ hd, if_pos (by omega)]

/-- Magnitude bits `k * 2 ^ m + r` stand for `r * 2 ^ k` units. -/
theorem funits_level {m k r : Nat} (hr : r ≤ 2 ^ (m + 1)) (hk : k = 0 ∨ 2 ^ m ≤ r) :
    funits m (k * 2 ^ m + r) = r * 2 ^ k := by
  have h0 : 0 < 2 ^ m := Nat.pow_pos (by omega)
  rw [Nat.pow_succ] at hr
  rcases Nat.lt_or_ge r (2 ^ m) with h | h
  · have : k = 0 := by omega
    subst this
    rw [funits_mk h, if_pos rfl]; simp
  · rcases Nat.lt_or_ge r (2 ^ m * 2) with h2 | h2
    · rw [show k * 2 ^ m + r = (k + 1) * 2 ^ m + (r - 2 ^ m) by rw [Nat.add_mul]; omega,
        funits_mk (by omega), if_neg (by omega), Nat.add_sub_cancel]
      congr 1; omega
    · rw [show k * 2 ^ m + r = (k + 2) * 2 ^ m + 0 by rw [Nat.add_mul]; omega,
        funits_mk h0, if_neg (by omega), Nat.add_zero, show k + 2 - 1 = k + 1 by omega,
        show r = 2 ^ m * 2 by omega, Nat.pow_succ]
      ring

/-- What the exponent chosen by `roundUnits` says about the number. -/
theorem log2_level (m : Nat) (p : Nat) {d : Nat} (hd : 0 < d) :
    p < d * 2 ^ ((p / d).log2 - m) * 2 ^ (m + 1) ∧
    ((p / d).log2 - m = 0 ∨ d * 2 ^ ((p / d).log2 - m) * 2 ^ m ≤ p) := by
  have h1 : p / d < 2 ^ ((p / d).log2 + 1) := Nat.lt_log2_self
  have h2 : p / d ≠ 0 → 2 ^ (p / d).log2 ≤ p / d := Nat.log2_self_le
  have hp : p < d * (p / d + 1) := Nat.lt_mul_div_succ p hd
  have hq : d * (p / d) ≤ p := Nat.mul_div_le p d
  generalize p / d = q at *
  generalize hL : q.log2 = L at *
  refine ⟨?_, ?_⟩
  · have e : 2 ^ (L + 1) ≤ 2 ^ (L - m) * 2 ^ (m + 1) := by
      rw [← Nat.pow_add]; exact Nat.pow_le_pow_right (by omega) (by omega)
    calc p < d * (q + 1) := hp
      _ ≤ d * (2 ^ (L - m) * 2 ^ (m + 1)) := Nat.mul_le_mul_left _ (by omega)
      _ = d * 2 ^ (L - m) * 2 ^ (m + 1) := by ring
  · rcases Nat.lt_or_ge m L with h | h
    · right
      have hq0 : q ≠ 0 := by
        rintro rfl
        simp at hL
        omega
      have := h2 hq0
      calc d * 2 ^ (L - m) * 2 ^ m = d * 2 ^ L := by
              rw [Nat.mul_assoc, ← Nat.pow_add]; congr 2; omega
        _ ≤ d * q := Nat.mul_le_mul_left _ this
        _ ≤ p := hq
    · left; omega

/-- `p / d` is between the midpoints to the neighbours, on one of them only if the
result is even. -/
theorem roundUnits_mid {m : Nat} (hm : 0 < m) (p : Nat) {d : Nat} (hd : 0 < d) :
    2 * p ≤ d * (funits m (roundUnits m p d) + funits m (roundUnits m p d + 1)) ∧
    (2 * p = d * (funits m (roundUnits m p d) + funits m (roundUnits m p d + 1)) →
      roundUnits m p d % 2 = 0) ∧
    (0 < roundUnits m p d →
      d * (funits m (roundUnits m p d - 1) + funits m (roundUnits m p d)) ≤ 2 * p ∧
      (d * (funits m (roundUnits m p d - 1) + funits m (roundUnits m p d)) = 2 * p →
        roundUnits m p d % 2 = 0)) := by
  obtain ⟨hlt, hge⟩ := log2_level m p hd
  unfold roundUnits
  simp only
  generalize (p / d).log2 - m = k at *
  have h0 : 0 < 2 ^ m := Nat.pow_pos (by omega)
  have hk0 : 0 < 2 ^ k := Nat.pow_pos (by omega)
  have hdk : 0 < d * 2 ^ k := Nat.mul_pos hd hk0
  obtain ⟨b1, b2, b3, b4⟩ := roundEven_bounds p hdk
  have hr1 : roundEven p (d * 2 ^ k) ≤ 2 ^ (m + 1) := roundEven_le hdk hlt
  have hr2 : k = 0 ∨ 2 ^ m ≤ roundEven p (d * 2 ^ k) := hge.imp id (roundEven_ge hdk)
  generalize hr : roundEven p (d * 2 ^ k) = r at *
  have hev : (k * 2 ^ m + r) % 2 = r % 2 := by
    obtain ⟨j, rfl⟩ : ∃ j, m = j + 1 := ⟨m - 1, by omega⟩
    rw [Nat.pow_succ, show k * (2 ^ j * 2) + r = 2 * (k * 2 ^ j) + r by ring]
    omega
  rw [hev, funits_level hr1 hr2]
  have hup : (r + 1) * 2 ^ k ≤ funits m (k * 2 ^ m + r + 1) := by
    rcases Nat.lt_or_ge r (2 ^ (m + 1)) with h | h
    · rw [Nat.add_assoc, funits_level (by omega) (hr2.imp id (by omega))]
    · have : r = 2 ^ m * 2 := by rw [Nat.pow_succ] at h hr1; omega
      rw [show k * 2 ^ m + r + 1 = (k + 1) * 2 ^ m + (2 ^ m + 1) by rw [this]; ring,
        funits_level (by rw [Nat.pow_succ]; omega) (.inr (by omega)), Nat.pow_succ, this,
        show (2 ^ m + 1) * (2 ^ k * 2) = (2 ^ m * 2 + 2) * 2 ^ k by ring]
      exact Nat.mul_le_mul_right _ (by omega)
  generalize funits m (k * 2 ^ m + r + 1) = u at *
  have hmid : d * 2 ^ k * (2 * r + 1) ≤ d * (r * 2 ^ k + u) := by
    rw [show d * 2 ^ k * (2 * r + 1) = d * (r * 2 ^ k + (r + 1) * 2 ^ k) by ring]
    exact Nat.mul_le_mul_left _ (by omega)
  refine ⟨by omega, fun h => b2 (by omega), fun hpos => ?_⟩
  by_cases hcase : k = 0 ∨ 2 ^ m < r
  · have hr0 : 0 < r := by
      rcases hcase with h | h
      · subst h; simpa using hpos
      · omega
    rw [show k * 2 ^ m + r - 1 = k * 2 ^ m + (r - 1) by omega,
      funits_level (by omega) (hcase.imp id (by omega)),
      show (r - 1) * 2 ^ k + r * 2 ^ k = 2 ^ k * (2 * r - 1) by
        rw [← Nat.add_mul, Nat.mul_comm]; congr 1; omega, ← Nat.mul_assoc]
    exact ⟨b3 hr0, fun h => b4 h hr0⟩
  · have hrm : r = 2 ^ m := by omega
    have hkpos : 0 < k := by omega
    have hge' := hge.resolve_left (by omega)
    have hlow : funits m (k * 2 ^ m + r - 1) < r * 2 ^ k := by
      rw [← funits_level hr1 hr2]
      exact funits_strictMono m (by omega)
    have : d * (funits m (k * 2 ^ m + r - 1) + r * 2 ^ k) < 2 * p := by
      calc d * (funits m (k * 2 ^ m + r - 1) + r * 2 ^ k) < d * (r * 2 ^ k + r * 2 ^ k) :=
            Nat.mul_lt_mul_of_pos_left (by omega) hd
        _ = 2 * (d * 2 ^ k * 2 ^ m) := by rw [hrm]; ring
        _ ≤ 2 * p := by omega
    exact ⟨by omega, by omega⟩

/-- A number which is a float is rounded to itself. -/
theorem roundUnits_exact {m : Nat} (hm : 0 < m) {d : Nat} (hd : 0 < d) (t : Nat) :
    roundUnits m (d * funits m t) d = t := by
  obtain ⟨h1, -, h3⟩ := roundUnits_mid hm (d * funits m t) hd
  have hstr := funits_strictMono m
  generalize roundUnits m (d * funits m t) d = E at *
  rw [show 2 * (d * funits m t) = d * (2 * funits m t) by ring] at h1 h3
  rcases Nat.lt_trichotomy t E with h | h | h
  · have h3 := Nat.le_of_mul_le_mul_left (h3 (by omega)).1 hd
    have ht : funits m t ≤ funits m (E - 1) := hstr.monotone (by omega)
    have := hstr h
    omega
  · exact h.symm
  · have h1 := Nat.le_of_mul_le_mul_left h1 hd
    have ht : funits m (E + 1) ≤ funits m t := hstr.monotone (by omega)
    have := hstr h
    omega

/-- Beyond the subnormal numbers all values are even numbers of units. -/
theorem funits_even {m t : Nat} (h : 2 ^ (m + 1) ≤ t) : funits m t % 2 = 0 := by
  have h0 : 0 < 2 ^ m := Nat.pow_pos (by omega)
  have he : 2 ≤ t / 2 ^ m := (Nat.le_div_iff_mul_le h0).2 (by rw [Nat.pow_succ] at h; omega)
  unfold funits
  rw [if_neg (by omega)]
  obtain ⟨e, he'⟩ : ∃ e, t / 2 ^ m - 1 = e + 1 := ⟨t / 2 ^ m - 2, by omega⟩
  rw [he', Nat.pow_succ, ← Nat.mul_assoc]
  omega

/-- Large numbers have large magnitudes. -/
theorem roundUnits_ge {m p d t : Nat} (hm : 0 < m) (hd : 0 < d) (h : d * funits m t ≤ p) :
    t ≤ roundUnits m p d := by
  obtain ⟨h1, -, -⟩ := roundUnits_mid hm p hd
  have hstr := funits_strictMono m
  generalize roundUnits m p d = E at *
  by_contra hc
  have ht : funits m (E + 1) ≤ funits m t := hstr.monotone (by omega)
  have hlt := hstr (show E < E + 1 by omega)
  have : d * (funits m E + funits m (E + 1)) < d * (2 * funits m t) :=
    Nat.mul_lt_mul_of_pos_left (by omega) hd
  rw [show d * (2 * funits m t) = 2 * (d * funits m t) by ring] at this
  omega

end Faster
