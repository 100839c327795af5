import Verif.Props.FloatBound
import Mathlib.Analysis.Complex.ExponentialBounds
/-
C106: `reduce_simd` and `reduce_scalar` of benches/usage.rs on arbitrary nonzero numbers, not
only on those for which every term is 9.0.
-/
namespace Faster
open Res SIMDSized SIMDIterable SIMDIterator
open Real (sqrt)

/-- A finite `f32` which is not zero is at least 2^-149. -/
theorem fin_ge_tiny {x : BitVec 32} {a : ℚ} (hx : ieee x = .fin a) (h0 : a ≠ 0) :
    1 / 2 ^ 149 ≤ |(a : ℝ)| := by
  have h := fin_real (.inl rfl) hx
  rw [show fone 32 = 149 from rfl] at h
  have hn : 1 ≤ fnum x := by
    rcases Nat.eq_zero_or_pos (fnum x) with h1 | h1
    · exfalso
      apply h0
      have : (a : ℝ) = 0 := by rw [h, h1]; simp
      exact_mod_cast this
    · exact h1
  have hn' : (1 : ℝ) ≤ fnum x := by exact_mod_cast hn
  rw [h, abs_mul, abs_of_nonneg (by positivity : (0 : ℝ) ≤ (fnum x : ℝ) / 2 ^ 149)]
  have : |(if x.msb then (-1 : ℝ) else 1)| = 1 := by split <;> simp
  rw [this, one_mul]
  gcongr

/-- The function of the benchmarks is finite, and between 8 and 2^25, for every finite number
except zero, with every reciprocal root within the documented error. -/
theorem curve_bounds {rsq : BitVec 32 → BitVec 32} (hr : IsRsqrt rsq) {x : BitVec 32} {a : ℚ}
    (hx : ieee x = .fin a) (h0 : a ≠ 0) :
    ∃ r : ℚ, ieee (curveScalar rsq x) = .fin r ∧ 8 ≤ (r : ℝ) ∧ (r : ℝ) ≤ 2 ^ 25 := by
  have hN : fNormal 32 = 1 / 2 ^ 126 := by simp [fNormal]
  have hL : fLimit 32 = 2 ^ 128 - 2 ^ 103 := by simp [fLimit]
  have hm : mantBits 32 + 1 = 24 := rfl
  obtain ⟨-, hy⟩ := fabs_facts (.inl rfl) hx
  have hlo := fin_ge_tiny hx h0
  rw [← Rat.cast_abs] at hlo
  generalize |a| = a' at *
  have hpos : (0 : ℝ) < a' := lt_of_lt_of_le (by positivity) hlo
  have hlim := fin_lt_limit (.inl rfl) hy
  rw [abs_of_pos hpos, hL] at hlim
  -- the first root
  set S := Real.sqrt a' with hS
  have hS1 : (1 / 2 ^ 75 : ℝ) ≤ S := by
    apply Real.le_sqrt_of_sq_le
    refine le_trans ?_ hlo
    norm_num
  have hS2 : S ≤ 2 ^ 64 := by
    rw [hS, Real.sqrt_le_left (by positivity)]
    norm_num at hlim ⊢
    linarith
  have hS0 : 0 < S := lt_of_lt_of_le (by positivity) hS1
  obtain ⟨b, hb, he⟩ := isRoundOf_rel (.inl rfl)
    (fsqrt_spec (.inl rfl) hy (by exact_mod_cast hpos.le))
    (by rw [hN, abs_of_pos hS0]; refine le_trans ?_ hS1; norm_num)
    (by rw [hL, abs_of_pos hS0]; refine lt_of_le_of_lt hS2 ?_; norm_num)
  rw [hm, ← hS, abs_of_pos hS0] at he
  have he' := abs_le.mp he
  have hb1 : (1 / 2 ^ 76 : ℝ) ≤ b := by
    have h1 := he'.2
    have : S / 2 ^ 24 ≤ S / 2 := by gcongr; norm_num
    have h2 : (1 / 2 ^ 75 : ℝ) = 2 * (1 / 2 ^ 76) := by norm_num
    linarith
  -- the reciprocal root
  obtain ⟨d, hd, hde⟩ := hr.1 _ b hb (by rw [hN]; refine le_trans ?_ hb1; norm_num)
  set T := Real.sqrt b with hT
  have hT1 : (1 / 2 ^ 38 : ℝ) ≤ T := by
    apply Real.le_sqrt_of_sq_le
    refine le_trans ?_ hb1
    norm_num
  have hT0 : 0 < T := lt_of_lt_of_le (by positivity) hT1
  have hde' := abs_le.mp hde
  have hd0 : (0 : ℝ) < d := by
    by_contra hc
    push Not at hc
    have : (d : ℝ) * T ≤ 0 := mul_nonpos_of_nonpos_of_nonneg hc hT0.le
    have := hde'.1
    norm_num at this
    linarith
  have hd1 : (d : ℝ) ≤ 2 ^ 39 := by
    have h1 : (d : ℝ) * (1 / 2 ^ 38) ≤ d * T := mul_le_mul_of_nonneg_left hT1 hd0.le
    have h2 := hde'.2
    have h3 : (d : ℝ) * (1 / 2 ^ 38) ≤ 2 := by
      refine le_trans h1 ?_
      norm_num at h2
      linarith
    rw [mul_one_div, div_le_iff₀ (by positivity)] at h3
    refine le_trans h3 ?_
    norm_num
  -- the ceiling
  have hc := fround_spec (.inl rfl) .up (rsq (fsqrt (fabsScalar x)))
  unfold IsRounded at hc
  rw [hd] at hc
  obtain ⟨-, k, hk, hp⟩ := hc
  have hk1 : k = ⌈d⌉ := hp
  have hkpos : 1 ≤ k := by
    rw [hk1]
    exact Int.one_le_ceil_iff.2 (by exact_mod_cast hd0)
  have hkhi : (k : ℝ) ≤ 2 ^ 40 := by
    have h1 : (k : ℚ) < d + 1 := by rw [hk1]; exact Int.ceil_lt_add_one d
    have h2 : (k : ℝ) < d + 1 := by exact_mod_cast h1
    have : (2 : ℝ) ^ 39 + 1 ≤ 2 ^ 40 := by norm_num
    linarith
  have hklo : (1 : ℝ) ≤ k := by exact_mod_cast hkpos
  -- the last root
  have hroot := fsqrt_spec (.inl rfl) hk (by exact_mod_cast (by omega : (0 : ℤ) ≤ k))
  rw [Rat.cast_intCast] at hroot
  set U := Real.sqrt k with hU
  have hU1 : (1 : ℝ) ≤ U := by
    apply Real.le_sqrt_of_sq_le
    rw [one_pow]
    exact hklo
  have hU2 : U ≤ 2 ^ 20 := by
    rw [hU, Real.sqrt_le_left (by positivity)]
    refine le_trans hkhi ?_
    norm_num
  have hU0 : 0 < U := by linarith
  obtain ⟨g, hg, hge⟩ := isRoundOf_rel (.inl rfl) hroot
    (by rw [hN, abs_of_pos hU0]; refine le_trans ?_ hU1; norm_num)
    (by rw [hL, abs_of_pos hU0]; refine lt_of_le_of_lt hU2 ?_; norm_num)
  rw [hm, abs_of_pos hU0] at hge
  have hge' := abs_le.mp hge
  have hg1 : (0.99 : ℝ) ≤ g := by have := hge'.2; norm_num at this ⊢; linarith
  have hg2 : (g : ℝ) ≤ 2 ^ 21 := by have := hge'.1; norm_num at this hU2 ⊢; linarith
  -- the product
  have hmul := (fmul_spec (.inl rfl) f32_constants.1 hg).1
  push_cast at hmul
  have hP0 : (0 : ℝ) < 9 * g := by linarith
  obtain ⟨r, hr1, hre⟩ := isRoundOf_rel (.inl rfl) hmul
    (by rw [hN, abs_of_pos hP0]; norm_num at hg1 ⊢; linarith)
    (by rw [hL, abs_of_pos hP0]; norm_num at hg2 ⊢; linarith)
  rw [hm, abs_of_pos hP0] at hre
  have hre' := abs_le.mp hre
  refine ⟨r, hr1, ?_, ?_⟩
  · have := hre'.2; norm_num at this hg1 ⊢; linarith
  · have := hre'.1; norm_num at this hg2 ⊢; linarith

/-- 2^29 roundings do not multiply a sum by more than 2^64. -/
theorem eps_power {D : Nat} (h : D ≤ 2 ^ 29) : (1 + fEps 32) ^ D ≤ 2 ^ 64 := by
  have e : fEps 32 = 1 / 2 ^ 24 := by simp [fEps]
  have h1 : (1 + fEps 32) ^ D ≤ Real.exp (fEps 32) ^ D := by
    refine pow_le_pow_left₀ (by have := fEps_pos (n := 32); linarith) ?_ D
    rw [add_comm]
    exact Real.add_one_le_exp _
  rw [← Real.exp_nat_mul] at h1
  refine h1.trans ?_
  have h2 : (D : ℝ) * fEps 32 ≤ (32 : ℕ) * 1 := by
    have : (D : ℝ) ≤ 2 ^ 29 := by exact_mod_cast h
    rw [e, mul_one_div, div_le_iff₀ (by positivity)]
    refine this.trans ?_
    norm_num
  refine (Real.exp_le_exp.2 h2).trans ?_
  rw [Real.exp_nat_mul]
  have h3 : Real.exp 1 ≤ 4 := (Real.exp_one_lt_d9.le).trans (by norm_num)
  refine (pow_le_pow_left₀ (Real.exp_pos 1).le h3 32).trans ?_
  norm_num

/-- **C106**, `reduce_simd` for arbitrary finite nonzero elements, a whole number of vectors,
and every reciprocal root within the documented error: a finite result, which differs from
that of the scalar loop with the same reciprocal root by no more than the rounding errors of
the additions. -/
theorem C106_reduce_any {o : F32Ops w} {rsq : BitVec 32 → BitVec 32} (h : o.Lanewise rsq)
    (hr : IsRsqrt rsq)
    {sum : (BitVec 32 → BitVec 32 → BitVec 32) → Vector (BitVec 32) w → Res (BitVec 32)} {p : Plan}
    (hp : Follows sum (fZero 32 false) p) (hl : p.lanes = List.range w)
    (c : Cfg) (fuel : Nat) (data : List (BitVec 32))
    (hdata : ∀ x ∈ data, ∃ a : ℚ, ieee x = .fin a ∧ a ≠ 0)
    (hmul : data.length % w = 0) (hsize : data.length + p.depth ≤ 2 ^ 29)
    (hw : 0 < w) (hlen : data.length + w < c.usize) (hfuel : data.length / w < fuel) :
    ∃ (r : BitVec 32) (s t : ℚ), reduceSimd o (sum fadd) c fuel data = ok r ∧ ieee r = .fin s ∧
      ieee (data.foldl (fun a v => fadd a (curveScalar rsq v)) 0#32) = .fin t ∧
      |(s - t : ℝ)| ≤ ((1 + fEps 32) ^ (data.length / w + p.depth) +
        (1 + fEps 32) ^ data.length - 2) *
        (data.map fun x => |(ieee (curveScalar rsq x)).real|).sum := by
  rw [reduceSimd_eq h]
  have hz : fZero 32 false = 0#32 := by decide
  have hL : fLimit 32 = 2 ^ 128 - 2 ^ 103 := by simp [fLimit]
  have hq : ∀ x ∈ data, (ieee (curveScalar rsq x)).Finite := by
    intro x hx
    obtain ⟨a, ha, h0⟩ := hdata x hx
    obtain ⟨r, hr1, -⟩ := curve_bounds hr ha h0
    rw [hr1]
    trivial
  have hsum : (data.map fun x => |(ieee (curveScalar rsq x)).real|).sum ≤ data.length * 2 ^ 25 := by
    clear hmul hsize hlen hfuel hq
    induction data with
    | nil => simp
    | cons x l ih =>
      obtain ⟨a, ha, h0⟩ := hdata x (by simp)
      obtain ⟨r, hr1, h8, h25⟩ := curve_bounds hr ha h0
      have := ih fun y hy => hdata y (by simp [hy])
      rw [List.map_cons, List.sum_cons, hr1, List.length_cons]
      push_cast
      have e : |FVal.real (.fin r)| = r := by
        show |(r : ℝ)| = r
        exact abs_of_pos (by linarith)
      rw [e]
      linarith
  have hsum0 : 0 ≤ (data.map fun x => |(ieee (curveScalar rsq x)).real|).sum :=
    List.sum_nonneg (by simp only [List.mem_map]; rintro y ⟨x, -, rfl⟩; exact abs_nonneg _)
  have hfin : ∀ D, D ≤ 2 ^ 29 → (1 + fEps 32) ^ D *
      (data.map fun x => |(ieee (curveScalar rsq x)).real|).sum < fLimit 32 := by
    intro D hD
    have h1 : ((data.length : ℕ) : ℝ) ≤ 2 ^ 29 := by
      exact_mod_cast (by omega : data.length ≤ 2 ^ 29)
    have h2 := mul_le_mul (eps_power hD) (hsum.trans (mul_le_mul_of_nonneg_right h1
      (by positivity : (0 : ℝ) ≤ 2 ^ 25))) hsum0 (by positivity)
    refine lt_of_le_of_lt h2 ?_
    rw [hL]
    norm_num
  have hdiv : (data.length + w - 1) / w = data.length / w := by
    have h1 := Nat.div_add_mod data.length w
    have h2 : data.length + w - 1 = w - 1 + w * (data.length / w) := by omega
    rw [h2, Nat.add_mul_div_left _ _ hw, Nat.div_eq_of_lt (by omega), Nat.zero_add]
  have hle : data.length / w ≤ data.length := Nat.div_le_self _ _
  obtain ⟨r, h1, -, h3⟩ := C109_reduce (.inl rfl) (curveScalar rsq) hp hl c fuel data 0#32 hw hlen
    hfuel hq (.inl hmul)
  rw [hz] at h1
  obtain ⟨s, hs⟩ := h3 (hfin _ (by rw [hdiv]; omega))
  obtain ⟨t, ht⟩ := (C109_scalar (.inl rfl) (curveScalar rsq) data hq).2 (hfin _ (by omega))
  have h4 := C109_simd_scalar (.inl rfl) (curveScalar rsq) hp hl c fuel data 0#32 hw hlen hfuel hq
    (.inl hmul) (by rw [hz]; exact h1) hs ht
  rw [hz] at ht
  rw [hdiv] at h4
  exact ⟨r, s, t, h1, hs, ht, h4⟩

/-- **C106**: without RSQRTPS the scalar loop is `reduce_scalar`. -/
theorem C106_reduce_near {o : F32Ops w} (h : o.Lanewise rsqrtExact)
    {sum : (BitVec 32 → BitVec 32 → BitVec 32) → Vector (BitVec 32) w → Res (BitVec 32)} {p : Plan}
    (hp : Follows sum (fZero 32 false) p) (hl : p.lanes = List.range w)
    (c : Cfg) (fuel : Nat) (data : List (BitVec 32))
    (hdata : ∀ x ∈ data, ∃ a : ℚ, ieee x = .fin a ∧ a ≠ 0)
    (hmul : data.length % w = 0) (hsize : data.length + p.depth ≤ 2 ^ 29)
    (hw : 0 < w) (hlen : data.length + w < c.usize) (hfuel : data.length / w < fuel) :
    ∃ (r : BitVec 32) (s t : ℚ), reduceSimd o (sum fadd) c fuel data = ok r ∧ ieee r = .fin s ∧
      ieee (reduceScalar data) = .fin t ∧
      |(s - t : ℝ)| ≤ ((1 + fEps 32) ^ (data.length / w + p.depth) +
        (1 + fEps 32) ^ data.length - 2) *
        (data.map fun x => |(ieee (curveScalar rsqrtExact x)).real|).sum :=
  C106_reduce_any h rsqrt_fallback hp hl c fuel data hdata hmul hsize hw hlen hfuel

/-- The elements have to be nonzero: the sum of one and zero is infinite. -/
theorem C106_reduce_zero : ieee (reduceScalar [0x3F800000#32, 0#32]) = .inf false := by
  have h : reduceScalar [0x3F800000#32, 0#32] = 0x7F800000#32 := by decide +kernel
  rw [h]
  exact (inf_iff (.inl rfl) _ false).2 (by decide +kernel)

/-- Non-vacuity: half and a hundredth, where the terms are not 9.0. -/
example : ∀ x ∈ [0x3F000000#32, 0x3C23D70A#32], ∃ a : ℚ, ieee x = .fin a ∧ a ≠ 0 := by
  intro x hx
  simp only [List.mem_cons, List.not_mem_nil, or_false] at hx
  rcases hx with rfl | rfl
  · exact ⟨_, rfl, by decide +kernel⟩
  · exact ⟨_, rfl, by decide +kernel⟩

end Faster
