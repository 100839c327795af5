import Verif.Props.Bench
import Verif.Props.Portability
/-
How far a sum of floats can be from the exact sum (C109).
-/
namespace Faster
open Res

variable {n w : Nat}

/-- Half a unit in the last place of 1: 2^-24 for `f32`, 2^-53 for `f64`. -/
noncomputable def fEps (n : Nat) : ℝ := if n = 32 then 1 / 2 ^ 24 else 1 / 2 ^ 53

theorem fEps_eq (hn : n = 32 ∨ n = 64) : fEps n = 1 / 2 ^ (mantBits n + 1) := by
  rcases hn with rfl | rfl
  · simp [fEps, show mantBits 32 = 23 from rfl]
  · simp [fEps, show mantBits 64 = 52 from rfl]

theorem fEps_pos : 0 < fEps n := by unfold fEps; split <;> positivity

/-- The value of a finite float. -/
noncomputable def FVal.real : FVal → ℝ
  | .fin a => a
  | _ => 0

/-- Sums too small for a normal number are exact. -/
theorem fadd_small (hn : n = 32 ∨ n = 64) {x y : BitVec n} {a b : ℚ} (hx : ieee x = .fin a)
    (hy : ieee y = .fin b) (h : |(a + b : ℝ)| < fNormal n) : ieee (fadd x y) = .fin (a + b) := by
  have hu : (0 : ℝ) < 2 ^ fone n := by positivity
  have hab : (a + b : ℝ) = ((fint x + fint y : ℤ) : ℝ) / 2 ^ fone n := by
    rw [fin_fint hn hx, fin_fint hn hy]
    push_cast
    rw [add_div]
  have hlt : (fint x + fint y).natAbs < 2 ^ mantBits n := by
    have h1 : |(a + b : ℝ)| * 2 ^ fone n < 2 ^ mantBits n := by
      rw [← fNormal_units hn]
      exact mul_lt_mul_of_pos_right h hu
    rw [hab, abs_div, abs_of_pos hu, div_mul_cancel₀ _ hu.ne'] at h1
    have h2 : ((fint x + fint y).natAbs : ℝ) < 2 ^ mantBits n := by
      rw [Nat.cast_natAbs]
      exact_mod_cast h1
    exact_mod_cast h2
  generalize fint x + fint y = z at hab hlt
  have hm : 2 ^ mantBits n < infBits n := by rcases hn with rfl | rfl <;> decide
  obtain ⟨t, h1, h2⟩ := exists_fkey hn (z := z) (by omega)
  have ht := ieee_fin hn (x := t) (by omega)
  have hnum : fnum t = fmag t := by
    unfold fnum funits
    rw [if_pos (Nat.div_eq_of_lt (by omega))]
  have hint : fint t = z := by
    rw [← h1]
    unfold fint fkey
    rw [hnum]
  have hval : fsign t * ((fnum t : ℚ) / 2 ^ fone n) = a + b := by
    have e := fin_fint hn ht
    rw [hint, ← hab] at e
    exact_mod_cast e
  rw [hval] at ht
  refine isRoundOf_exact hn ht ?_
  have := fadd_spec hn hx hy
  push_cast
  exact this

/-- **Rounding error of one addition**: at most `fEps` of the exact sum, whenever the
result is finite. -/
theorem fadd_error (hn : n = 32 ∨ n = 64) {x y : BitVec n} {a b s : ℚ} (hx : ieee x = .fin a)
    (hy : ieee y = .fin b) (hs : ieee (fadd x y) = .fin s) :
    |(s - (a + b) : ℝ)| ≤ fEps n * |(a + b : ℝ)| := by
  by_cases h : |(a + b : ℝ)| < fNormal n
  · have := fadd_small hn hx hy h
    rw [hs] at this
    injection this with this
    rw [this]
    push_cast
    rw [sub_self, abs_zero]
    exact mul_nonneg fEps_pos.le (abs_nonneg _)
  · have hr := fadd_spec hn hx hy
    have h2 := hr.2
    rw [hs] at h2
    obtain ⟨t, h3, h4⟩ := isRoundOf_rel hn hr (not_lt.mp h) h2.1
    rw [hs] at h3
    injection h3 with h3
    rw [h3, abs_sub_comm, fEps_eq hn, one_div, mul_comm, ← div_eq_mul_inv]
    exact h4

/-- The float `x` is `S` up to `d` rounding errors relative to the sum `T` of the magnitudes
of its terms. -/
def Near (d : Nat) (x : BitVec n) (S T : ℝ) : Prop :=
  |S| ≤ T ∧ ∃ a : ℚ, ieee x = .fin a ∧ |(a - S : ℝ)| ≤ ((1 + fEps n) ^ d - 1) * T

theorem one_le_eps_pow (d : Nat) : 1 ≤ (1 + fEps n) ^ d :=
  one_le_pow₀ (by linarith [fEps_pos (n := n)])

theorem Near.mono {d e : Nat} {x : BitVec n} {S T : ℝ} (h : Near d x S T) (hd : d ≤ e) :
    Near e x S T := by
  obtain ⟨h1, a, h2, h3⟩ := h
  refine ⟨h1, a, h2, h3.trans ?_⟩
  have : (1 + fEps n) ^ d ≤ (1 + fEps n) ^ e :=
    pow_le_pow_right₀ (by linarith [fEps_pos (n := n)]) hd
  exact mul_le_mul_of_nonneg_right (by linarith) (le_trans (abs_nonneg _) h1)

theorem Near.exact {x : BitVec n} {a : ℚ} (h : ieee x = .fin a) : Near 0 x a |(a : ℝ)| :=
  ⟨le_refl _, a, h, by simp⟩

/-- Magnitude of the exact sum of two results. -/
theorem Near.size {d : Nat} {x : BitVec n} {S T : ℝ} (h : Near d x S T) {a : ℚ}
    (ha : ieee x = .fin a) : |(a : ℝ)| ≤ (1 + fEps n) ^ d * T := by
  obtain ⟨h1, b, h2, h3⟩ := h
  rw [ha] at h2
  injection h2 with h2
  subst h2
  have := abs_sub_abs_le_abs_sub (a : ℝ) S
  linarith

theorem Near.add (hn : n = 32 ∨ n = 64) {d e : Nat} {x y : BitVec n} {S T S' T' : ℝ}
    (hx : Near d x S T) (hy : Near e y S' T') (hf : (ieee (fadd x y)).Finite) :
    Near (max d e + 1) (fadd x y) (S + S') (T + T') := by
  have hx' := hx.mono (Nat.le_max_left d e)
  have hy' := hy.mono (Nat.le_max_right d e)
  obtain ⟨h1, a, h2, h3⟩ := hx'
  obtain ⟨h4, b, h5, h6⟩ := hy'
  refine ⟨(abs_add_le _ _).trans (add_le_add h1 h4), ?_⟩
  cases hs : ieee (fadd x y) with
  | nan => rw [hs] at hf; exact hf.elim
  | inf t => rw [hs] at hf; exact hf.elim
  | fin s =>
    refine ⟨s, rfl, ?_⟩
    have h7 := fadd_error hn h2 h5 hs
    have h8 := Near.size (hx.mono (Nat.le_max_left d e)) h2
    have h9 := Near.size (hy.mono (Nat.le_max_right d e)) h5
    have hp := fEps_pos (n := n)
    set E := (1 + fEps n) ^ max d e with hE
    have h10 : |(a + b : ℝ)| ≤ E * (T + T') := by
      have := abs_add_le (a : ℝ) b
      linarith
    have h11 : fEps n * |(a + b : ℝ)| ≤ fEps n * (E * (T + T')) := mul_le_mul_of_nonneg_left h10 hp.le
    have h12 : |(s - (S + S') : ℝ)| ≤ |(s - (a + b) : ℝ)| + (|(a - S : ℝ)| + |(b - S' : ℝ)|) := by
      have e1 : (s - (S + S') : ℝ) = (s - (a + b)) + ((a - S) + (b - S')) := by ring
      rw [e1]
      exact (abs_add_le _ _).trans (add_le_add_right (abs_add_le _ _) _)
    calc _ ≤ _ := h12
      _ ≤ fEps n * (E * (T + T')) + ((E - 1) * T + (E - 1) * T') := by linarith
      _ = _ := by rw [pow_succ, ← hE]; ring

/-- No overflow if the terms are small enough. -/
theorem Near.finite (hn : n = 32 ∨ n = 64) {d e : Nat} {x y : BitVec n} {S T S' T' : ℝ}
    (hx : Near d x S T) (hy : Near e y S' T')
    (hb : (1 + fEps n) ^ max d e * (T + T') < fLimit n) : (ieee (fadd x y)).Finite := by
  obtain ⟨-, a, h2, -⟩ := id hx
  obtain ⟨-, b, h5, -⟩ := id hy
  have h8 := Near.size (hx.mono (Nat.le_max_left d e)) h2
  have h9 := Near.size (hy.mono (Nat.le_max_right d e)) h5
  have h10 := abs_add_le (a : ℝ) b
  have hr := (fadd_spec hn h2 h5).2
  cases hs : ieee (fadd x y) with
  | nan => rw [hs] at hr; exact hr.elim
  | inf t => rw [hs] at hr; exact absurd hr (not_le.mpr (by linarith))
  | fin s => trivial

/-- A plan: the error grows with its depth. -/
theorem Plan.near (hn : n = 32 ∨ n = 64) (v : Nat → BitVec n) (D : Nat) (S T : Nat → ℝ) (p : Plan)
    (hv : ∀ i ∈ p.lanes, (ieee (v i)).Finite → Near D (v i) (S i) (T i))
    (hf : (ieee (p.eval fadd (fZero n false) v)).Finite) :
    Near (D + p.depth) (p.eval fadd (fZero n false) v) (p.lanes.map S).sum (p.lanes.map T).sum := by
  induction p with
  | zero =>
    have := Near.exact (fzero_facts hn false).2
    simpa [Plan.eval, Plan.lanes] using this.mono (Nat.zero_le _)
  | lane i => simpa [Plan.eval, Plan.lanes, Plan.depth] using hv i (by simp [Plan.lanes]) hf
  | add l r ihl ihr =>
    have hfl : (ieee (l.eval fadd (fZero n false) v)).Finite := by
      by_contra h; exact fadd_absorbs hn (.inl h) hf
    have hfr : (ieee (r.eval fadd (fZero n false) v)).Finite := by
      by_contra h; exact fadd_absorbs hn (.inr h) hf
    have := (ihl (fun i hi => hv i (List.mem_append_left _ hi)) hfl).add hn
      (ihr (fun i hi => hv i (List.mem_append_right _ hi)) hfr) hf
    simp only [Plan.lanes, List.map_append, List.sum_append, Plan.depth, Plan.eval]
    rwa [show D + (max l.depth r.depth + 1) = max (D + l.depth) (D + r.depth) + 1 by omega]

theorem Plan.finite (hn : n = 32 ∨ n = 64) (v : Nat → BitVec n) (D : Nat) (S T : Nat → ℝ) (p : Plan)
    (hv : ∀ i ∈ p.lanes, Near D (v i) (S i) (T i))
    (hb : (1 + fEps n) ^ (D + p.depth) * (p.lanes.map T).sum < fLimit n) :
    Near (D + p.depth) (p.eval fadd (fZero n false) v) (p.lanes.map S).sum (p.lanes.map T).sum := by
  induction p with
  | zero =>
    have := Near.exact (fzero_facts hn false).2
    simpa [Plan.eval, Plan.lanes] using this.mono (Nat.zero_le _)
  | lane i => simpa [Plan.eval, Plan.lanes, Plan.depth] using hv i (by simp [Plan.lanes])
  | add l r ihl ihr =>
    simp only [Plan.lanes, List.map_append, List.sum_append, Plan.depth, Plan.eval] at hb hv ⊢
    have hT : ∀ is : List Nat, (∀ i ∈ is, Near D (v i) (S i) (T i)) → 0 ≤ (is.map T).sum := by
      intro is h
      apply List.sum_nonneg
      intro x hx
      obtain ⟨i, hi, rfl⟩ := List.mem_map.1 hx
      exact le_trans (abs_nonneg _) (h i hi).1
    have h1 := hT _ fun i hi => hv i (List.mem_append_left _ hi)
    have h2 := hT _ fun i hi => hv i (List.mem_append_right _ hi)
    rw [show D + (max l.depth r.depth + 1) = max (D + l.depth) (D + r.depth) + 1 by omega] at hb ⊢
    have hle : ∀ e, e ≤ max (D + l.depth) (D + r.depth) + 1 → ∀ X : ℝ, 0 ≤ X →
        X ≤ (l.lanes.map T).sum + (r.lanes.map T).sum → (1 + fEps n) ^ e * X < fLimit n := by
      intro e he X hX hXle
      refine lt_of_le_of_lt ?_ hb
      have := pow_le_pow_right₀ (show 1 ≤ 1 + fEps n by linarith [fEps_pos (n := n)]) he
      exact mul_le_mul this hXle hX (by linarith [one_le_eps_pow (n := n) (max (D + l.depth) (D + r.depth) + 1)])
    have hl := ihl (fun i hi => hv i (List.mem_append_left _ hi)) (hle _ (by omega) _ h1 (by linarith))
    have hr := ihr (fun i hi => hv i (List.mem_append_right _ hi)) (hle _ (by omega) _ h2 (by linarith))
    exact hl.add hn hr (hl.finite hn hr (hle _ (by omega) _ (by linarith) le_rfl))

/-- Sum of the columns and sum of the rows. -/
theorem sum_swap_real {α : Type} (l : List α) (is : List Nat) (f : α → Nat → ℝ) :
    (is.map fun i => (l.map fun v => f v i).sum).sum = (l.map fun v => (is.map (f v)).sum).sum := by
  induction l with
  | nil => simp
  | cons v l ih => simp only [List.map_cons, List.sum_cons, ← ih, List.sum_map_add]

theorem sum_lanes (vs : List (Vector (BitVec n) w)) (q : BitVec n → ℝ) :
    ((List.range w).map fun i => (vs.map fun v => q (v[i]?.getD 0)).sum).sum =
      ((lanes vs).map q).sum := by
  rw [sum_swap_real vs (List.range w) (fun v i => q (v[i]?.getD 0))]
  unfold lanes
  rw [List.map_flatMap, List.flatMap_def, List.sum_flatten, List.map_map]
  congr 1
  apply List.map_congr_left
  intro v _
  simp only [Function.comp_apply]
  conv_rhs => rw [show v.toList = (List.range w).map (fun i => v[i]?.getD 0) from (range_vec v).symm]
  rw [List.map_map]
  rfl

/-- The lanes of an accumulator which adds floats: one rounding per vector. -/
theorem acc_near (hn : n = 32 ∨ n = 64) (g : BitVec n → BitVec n) (q : BitVec n → ℝ)
    (vs : List (Vector (BitVec n) w)) (hq : ∀ x ∈ lanes vs, ∃ a : ℚ, ieee (g x) = .fin a ∧ q x = a)
    (acc : Vector (BitVec n) w) (k : Nat) {i : Nat} (hi : i < w) (S T : ℝ)
    (hk : (ieee acc[i]).Finite → Near k acc[i] S T)
    (hf : (ieee (vs.foldl (fun a v => Vector.zipWith fadd a (v.map g)) acc)[i]).Finite) :
    Near (k + vs.length) (vs.foldl (fun a v => Vector.zipWith fadd a (v.map g)) acc)[i]
      (S + (vs.map fun v => q (v[i]?.getD 0)).sum)
      (T + (vs.map fun v => |q (v[i]?.getD 0)|).sum) := by
  induction vs generalizing acc k S T with
  | nil => simpa using hk (by simpa using hf)
  | cons v vs ih =>
    obtain ⟨a, h1, h2⟩ := hq v[i] (by rw [lanes_cons]; exact List.mem_append_left _ (by simp))
    rw [List.foldl_cons] at hf
    have := ih (fun x hx => hq x (by rw [lanes_cons]; exact List.mem_append_right _ hx))
      (Vector.zipWith fadd acc (v.map g)) (k + 1) (S + q v[i]) (T + |q v[i]|) (by
        rw [Vector.getElem_zipWith, Vector.getElem_map]
        intro h
        have ha : (ieee acc[i]).Finite := by
          by_contra h'; exact fadd_absorbs hn (.inl h') h
        have := (hk ha).add hn (Near.exact h1) h
        rw [h2]
        simpa using this) hf
    simp only [List.foldl_cons, List.map_cons, List.sum_cons, List.length_cons, hi, getElem?_pos,
      Option.getD_some, ← add_assoc] at this ⊢
    rwa [show k + vs.length + 1 = k + 1 + vs.length by omega]

/-- The same without assuming the result to be finite, if the terms are small enough. -/
theorem acc_finite (hn : n = 32 ∨ n = 64) (g : BitVec n → BitVec n) (q : BitVec n → ℝ)
    (vs : List (Vector (BitVec n) w)) (hq : ∀ x ∈ lanes vs, ∃ a : ℚ, ieee (g x) = .fin a ∧ q x = a)
    (acc : Vector (BitVec n) w) (k : Nat) {i : Nat} (hi : i < w) (S T : ℝ)
    (hk : Near k acc[i] S T)
    (hb : (1 + fEps n) ^ (k + vs.length) * (T + (vs.map fun v => |q (v[i]?.getD 0)|).sum) < fLimit n) :
    Near (k + vs.length) (vs.foldl (fun a v => Vector.zipWith fadd a (v.map g)) acc)[i]
      (S + (vs.map fun v => q (v[i]?.getD 0)).sum)
      (T + (vs.map fun v => |q (v[i]?.getD 0)|).sum) := by
  induction vs generalizing acc k S T with
  | nil => simpa using hk
  | cons v vs ih =>
    obtain ⟨a, h1, h2⟩ := hq v[i] (by rw [lanes_cons]; exact List.mem_append_left _ (by simp))
    simp only [List.foldl_cons, List.map_cons, List.sum_cons, List.length_cons, hi, getElem?_pos,
      Option.getD_some, ← add_assoc] at ih hb ⊢
    rw [show k + vs.length + 1 = k + 1 + vs.length by omega] at hb ⊢
    refine ih (fun x hx => hq x (by rw [lanes_cons]; exact List.mem_append_right _ hx))
      (Vector.zipWith fadd acc (v.map g)) (k + 1) (S + q v[i]) (T + |q v[i]|) ?_ hb
    rw [Vector.getElem_zipWith, Vector.getElem_map, h2]
    have hx := Near.exact h1
    have hfin := hk.finite hn hx (by
      refine lt_of_le_of_lt ?_ hb
      have hT : 0 ≤ T := le_trans (abs_nonneg _) hk.1
      have hpos : 0 ≤ (vs.map fun v => |q (v[i]?.getD 0)|).sum := by
        apply List.sum_nonneg
        intro x hx
        obtain ⟨u, -, rfl⟩ := List.mem_map.1 hx
        exact abs_nonneg _
      simp only [hi, getElem?_pos, Option.getD_some] at hpos
      have := pow_le_pow_right₀ (show 1 ≤ 1 + fEps n by linarith [fEps_pos (n := n)])
        (show max k 0 ≤ k + 1 + vs.length by omega)
      refine mul_le_mul this ?_ (add_nonneg hT (abs_nonneg _))
        (by linarith [one_le_eps_pow (n := n) (k + 1 + vs.length)])
      rw [h2]
      linarith)
    have := hk.add hn hx hfin
    simpa using this

/-! ### C109 -/

/-- At most `D` roundings on any path: the result of `sum`, if finite, differs from the exact
sum of the lanes by at most `(1 + fEps)^D - 1` of the sum of their magnitudes; and it is finite
unless that bound reaches the overflow limit. -/
def SumWithin (n w D : Nat)
    (sum : (BitVec n → BitVec n → BitVec n) → Vector (BitVec n) w → Res (BitVec n)) : Prop :=
  ∀ (v : Vector (BitVec n) w) (a : Nat → ℚ), (∀ i (h : i < w), ieee v[i] = .fin (a i)) →
    ∃ r, sum fadd v = ok r ∧
      (∀ s, ieee r = .fin s → |(s - ((List.range w).map fun i => (a i : ℝ)).sum : ℝ)| ≤
        ((1 + fEps n) ^ D - 1) * ((List.range w).map fun i => |(a i : ℝ)|).sum) ∧
      ((1 + fEps n) ^ D * ((List.range w).map fun i => |(a i : ℝ)|).sum < fLimit n →
        ∃ s, ieee r = .fin s)

/-- **C109**, one vector, any order of additions. -/
theorem C109_sum (hn : n = 32 ∨ n = 64)
    {sum : (BitVec n → BitVec n → BitVec n) → Vector (BitVec n) w → Res (BitVec n)} {p : Plan}
    (hf : Follows sum (fZero n false) p) (hl : p.lanes = List.range w) :
    SumWithin n w p.depth sum := by
  intro v a ha
  have hv : ∀ i ∈ p.lanes, Near 0 (v[i]?.getD (fZero n false)) (a i) |(a i : ℝ)| := by
    intro i hi
    rw [hl, List.mem_range] at hi
    simp only [Vector.getElem?_eq_getElem hi, Option.getD_some]
    exact Near.exact (ha i hi)
  refine ⟨_, hf fadd v, fun s hs => ?_, fun hb => ?_⟩
  · have := Plan.near hn _ 0 (fun i => (a i : ℝ)) (fun i => |(a i : ℝ)|) p
      (fun i hi _ => hv i hi) (by rw [hs]; trivial)
    obtain ⟨-, b, h1, h2⟩ := this
    rw [hs] at h1
    cases h1
    rwa [hl, zero_add] at h2
  · rw [← hl] at hb
    obtain ⟨-, b, h1, -⟩ := Plan.finite hn _ 0 (fun i => (a i : ℝ)) (fun i => |(a i : ℝ)|) p hv
      (by rwa [zero_add])
    exact ⟨b, h1⟩

theorem seqPlan_depth (w : Nat) : (seqPlan w).depth = w := by
  induction w with
  | zero => rfl
  | succ w ih => simp [seqPlan, Plan.depth, ih]

/-- **C109**, every version of `sum`: the fallback adds lane after lane, the versions for SSE3
and AVX in pairs. -/
theorem C109_versions :
    (∀ n w, n = 32 ∨ n = 64 → SumWithin n w w fun f v => sumFallbackF f (fZero n false) v) ∧
    SumWithin 32 4 2 (fun f v => sumF32x4 f v) ∧ SumWithin 64 2 1 (fun f v => sumF64x2 f v) ∧
    SumWithin 32 8 3 (fun f v => sumF32x8 f v) ∧ SumWithin 64 4 2 (fun f v => sumF64x4 f v) := by
  refine ⟨fun n w hn => ?_, ?_, ?_, ?_, ?_⟩
  · have := C63_fallback (n := n) (w := w) (fZero n false)
    have h := C109_sum hn this.1 this.2
    rwa [seqPlan_depth] at h
  · exact C109_sum (.inl rfl) (C63_f32x4 _).1 (C63_f32x4 (fZero 32 false)).2
  · exact C109_sum (.inr rfl) (C63_f64x2 _).1 (C63_f64x2 (fZero 64 false)).2
  · exact C109_sum (.inl rfl) (C63_f32x8 _).1 (C63_f32x8 (fZero 32 false)).2
  · exact C109_sum (.inr rfl) (C63_f64x4 _).1 (C63_f64x4 (fZero 64 false)).2

/-- **C109**, any sequence of vectors: adding the vectors lane by lane, then `sum`. -/
theorem C109_vectors (hn : n = 32 ∨ n = 64)
    {sum : (BitVec n → BitVec n → BitVec n) → Vector (BitVec n) w → Res (BitVec n)} {p : Plan}
    (hp : Follows sum (fZero n false) p) (hl : p.lanes = List.range w)
    (us : List (Vector (BitVec n) w)) (hq : ∀ x ∈ lanes us, (ieee x).Finite) :
    let D := us.length + p.depth
    let total := ((lanes us).map fun x => (ieee x).real).sum
    let size := ((lanes us).map fun x => |(ieee x).real|).sum
    ∃ r, sum fadd (us.foldl (Vector.zipWith fadd) (Packed.splat (fZero n false))) = ok r ∧
      (∀ s, ieee r = .fin s → |(s - total : ℝ)| ≤ ((1 + fEps n) ^ D - 1) * size) ∧
      ((1 + fEps n) ^ D * size < fLimit n → ∃ s, ieee r = .fin s) := by
  intro D total size
  have hreal : ∀ x ∈ lanes us, ∃ a : ℚ, ieee (id x) = .fin a ∧ (ieee x).real = a := by
    intro x hx
    have := hq x hx
    cases h : ieee x with
    | nan => rw [h] at this; exact this.elim
    | inf t => rw [h] at this; exact this.elim
    | fin a => exact ⟨a, h, rfl⟩
  have htot : ((List.range w).map fun i =>
      (us.map fun v => (ieee (v[i]?.getD 0)).real).sum).sum = total :=
    sum_lanes us fun x => (ieee x).real
  have hsize : ((List.range w).map fun i =>
      (us.map fun v => |(ieee (v[i]?.getD 0)).real|).sum).sum = size :=
    sum_lanes us fun x => |(ieee x).real|
  rw [← htot, ← hsize]
  rw [show us.foldl (Vector.zipWith fadd) (Packed.splat (fZero n false)) =
    us.foldl (fun a v => Vector.zipWith fadd a (v.map id)) (Packed.splat (fZero n false)) by
      simp only [Vector.map_id_fun, id]]
  set acc := us.foldl (fun a v => Vector.zipWith fadd a (v.map id)) (Packed.splat (fZero n false)) with hacc
  have hz : ∀ i (hi : i < w), Near 0 (Packed.splat (fZero n false) : Vector (BitVec n) w)[i] 0 0 := by
    intro i hi
    have := Near.exact (fzero_facts hn false).2
    simpa [Packed.splat] using this
  refine ⟨_, hp fadd acc, fun s hs => ?_, fun hb => ?_⟩
  · have := Plan.near hn (fun i => acc[i]?.getD (fZero n false)) us.length
      (fun i => (us.map fun v => (ieee (v[i]?.getD 0)).real).sum)
      (fun i => (us.map fun v => |(ieee (v[i]?.getD 0)).real|).sum) p (by
        intro i hi hf
        rw [hl, List.mem_range] at hi
        simp only [Vector.getElem?_eq_getElem hi, Option.getD_some] at hf
        have := acc_near hn id (fun x => (ieee x).real) us hreal (Packed.splat (fZero n false)) 0
          hi 0 0 (fun _ => hz i hi) hf
        rw [Vector.getElem?_eq_getElem hi, Option.getD_some]
        rw [← hacc] at this
        simpa only [zero_add] using this) (by rw [hs]; trivial)
    obtain ⟨-, b, h1, h2⟩ := this
    rw [hs] at h1
    cases h1
    rwa [hl] at h2
  · have := Plan.finite hn (fun i => acc[i]?.getD (fZero n false)) us.length
      (fun i => (us.map fun v => (ieee (v[i]?.getD 0)).real).sum)
      (fun i => (us.map fun v => |(ieee (v[i]?.getD 0)).real|).sum) p (by
        intro i hi
        rw [hl, List.mem_range] at hi
        have := acc_finite hn id (fun x => (ieee x).real) us hreal (Packed.splat (fZero n false)) 0
          hi 0 0 (hz i hi) (by
            rw [zero_add, zero_add]
            refine lt_of_le_of_lt ?_ hb
            have h1 := pow_le_pow_right₀ (show 1 ≤ 1 + fEps n by linarith [fEps_pos (n := n)])
              (Nat.le_add_right us.length p.depth)
            have hnn : ∀ j : Nat, 0 ≤ (us.map fun v => |(ieee (v[j]?.getD 0)).real|).sum := by
              intro j
              apply List.sum_nonneg
              intro x hx
              obtain ⟨u, -, rfl⟩ := List.mem_map.1 hx
              exact abs_nonneg _
            refine mul_le_mul h1 ?_ (hnn i) (by linarith [one_le_eps_pow (n := n) (us.length + p.depth)])
            apply List.single_le_sum
            · intro y hy
              obtain ⟨j, -, rfl⟩ := List.mem_map.1 hy
              exact hnn j
            · exact List.mem_map.2 ⟨i, List.mem_range.2 hi, rfl⟩)
        rw [Vector.getElem?_eq_getElem hi, Option.getD_some]
        rw [← hacc] at this
        simpa only [zero_add] using this) (by rwa [hl])
    obtain ⟨-, b, h1, -⟩ := this
    exact ⟨b, h1⟩

/-- **C109**, a slice: `simd_reduce` with a lane-wise function `g` and vector additions, then
`sum`. One more rounding per vector. If the length is not a multiple of the width, `g` of the
default has to be zero. -/
theorem C109_reduce (hn : n = 32 ∨ n = 64) (g : BitVec n → BitVec n)
    {sum : (BitVec n → BitVec n → BitVec n) → Vector (BitVec n) w → Res (BitVec n)} {p : Plan}
    (hp : Follows sum (fZero n false) p) (hl : p.lanes = List.range w) (c : Cfg) (fuel : Nat)
    (data : List (BitVec n)) (e : BitVec n) (hw : 0 < w) (hlen : data.length + w < c.usize)
    (hfuel : data.length / w < fuel) (hq : ∀ x ∈ data, (ieee (g x)).Finite)
    (hpad : data.length % w = 0 ∨ ieee (g e) = .fin 0) :
    let D := (data.length + w - 1) / w + p.depth
    let total := (data.map fun x => (ieee (g x)).real).sum
    let size := (data.map fun x => |(ieee (g x)).real|).sum
    ∃ r, (do
      let (_, acc, _) ← simdReduce c fuel (simdIter (w := w) data (Packed.splat e))
        (Packed.splat (fZero n false)) () (fun _ a v => ok (Vector.zipWith fadd a (v.map g), ()))
      sum fadd acc) = ok r ∧
      (∀ s, ieee r = .fin s → |(s - total : ℝ)| ≤ ((1 + fEps n) ^ D - 1) * size) ∧
      ((1 + fEps n) ^ D * size < fLimit n → ∃ s, ieee r = .fin s) := by
  intro D total size
  rw [C03_reduce_foldl c fuel data (Packed.splat e) (Packed.splat (fZero n false))
    (fun (a v : Vector (BitVec n) w) => Vector.zipWith fadd a (v.map g)) hw hlen hfuel]
  simp only [ok_bind]
  have hcnt := calls_length hw (Packed.splat e) data
  have := C109_vectors hn hp hl ((calls w (Packed.splat e) data).map (Vector.map g)) (by
    intro x hx
    rw [lanes_map] at hx
    obtain ⟨y, hy, rfl⟩ := List.mem_map.1 hx
    rcases mem_pad_zero e hw data y hy with ⟨h1, rfl⟩ | h
    · rw [hpad.resolve_left h1]; trivial
    · exact hq y h)
  rw [lanes_map, List.map_map, List.map_map, List.length_map, hcnt, List.foldl_map] at this
  have h1 := sum_pad_zero (w := w) (fun x => (ieee (g x)).real) e hw data
    (hpad.imp id fun h => by rw [h]; simp [FVal.real])
  have h2 := sum_pad_zero (w := w) (fun x => |(ieee (g x)).real|) e hw data
    (hpad.imp id fun h => by rw [h]; simp [FVal.real])
  simp only [Function.comp_def] at this
  rw [h1, h2] at this
  exact this

/-- Non-vacuity: seven floats in vectors of four, 0.1 to 0.7; the result is 2.8 to within one
unit in the last place. -/
example : (do
    let (_, acc, _) ← simdReduce debug64 9 (simdIter (w := 4)
      [0x3DCCCCCD#32, 0x3E4CCCCD, 0x3E99999A, 0x3ECCCCCD, 0x3F000000, 0x3F19999A, 0x3F333333]
      (Packed.splat 0#32)) (Packed.splat (fZero 32 false)) ()
      (fun _ a v => ok (Vector.zipWith fadd a (v.map id), ()))
    sumF32x4 fadd acc) = ok 0x40333333#32 := by decide +kernel

/-- **C109**, the scalar loop over the same elements: one rounding per element. -/
theorem C109_scalar {α : Type} (hn : n = 32 ∨ n = 64) (g : α → BitVec n) (data : List α)
    (hq : ∀ x ∈ data, (ieee (g x)).Finite) :
    let total := (data.map fun x => (ieee (g x)).real).sum
    let size := (data.map fun x => |(ieee (g x)).real|).sum
    let r := data.foldl (fun a x => fadd a (g x)) (fZero n false)
    (∀ s, ieee r = .fin s → |(s - total : ℝ)| ≤ ((1 + fEps n) ^ data.length - 1) * size) ∧
    ((1 + fEps n) ^ data.length * size < fLimit n → ∃ s, ieee r = .fin s) := by
  intro total size r
  let v : Nat → BitVec n := fun i => (data.map g)[i]?.getD (fZero n false)
  have hev : r = (seqPlan data.length).eval fadd (fZero n false) v := by
    have key : ∀ k ≤ data.length, (data.take k).foldl (fun a x => fadd a (g x)) (fZero n false) =
        (seqPlan k).eval fadd (fZero n false) v := by
      intro k hk
      induction k with
      | zero => rfl
      | succ k ih =>
        have hlt : k < data.length := by omega
        rw [List.take_succ_eq_append_getElem hlt, List.foldl_append, ih (by omega)]
        simp [seqPlan, Plan.eval, v, hlt]
    have := key data.length le_rfl
    rwa [List.take_length] at this
  have hmap : ∀ f : BitVec n → ℝ, ((seqPlan data.length).lanes.map fun i => f (v i)).sum =
      (data.map fun x => f (g x)).sum := by
    intro f
    rw [seqPlan_lanes]
    congr 1
    apply List.ext_getElem
    · simp
    · intro i h1 h2
      simp only [List.length_map] at h2
      simp [v, h2]
  have hnear : ∀ i ∈ (seqPlan data.length).lanes,
      Near 0 (v i) (ieee (v i)).real |(ieee (v i)).real| := by
    intro i hi
    rw [seqPlan_lanes, List.mem_range] at hi
    have h := hq data[i] (List.getElem_mem hi)
    have e : v i = g data[i] := by simp [v, hi]
    rw [e]
    cases h' : ieee (g data[i]) with
    | nan => rw [h'] at h; exact h.elim
    | inf t => rw [h'] at h; exact h.elim
    | fin a => exact Near.exact h'
  have htot : total = ((seqPlan data.length).lanes.map fun i => (ieee (v i)).real).sum :=
    (hmap fun x => (ieee x).real).symm
  have hsize : size = ((seqPlan data.length).lanes.map fun i => |(ieee (v i)).real|).sum :=
    (hmap fun x => |(ieee x).real|).symm
  have hd := seqPlan_depth data.length
  refine ⟨fun s hs => ?_, fun hb => ?_⟩
  · rw [hev] at hs
    obtain ⟨-, b, h1, h2⟩ := Plan.near hn v 0 (fun i => (ieee (v i)).real)
      (fun i => |(ieee (v i)).real|) (seqPlan data.length) (fun i hi _ => hnear i hi)
      (by rw [hs]; trivial)
    rw [hs] at h1
    cases h1
    rwa [zero_add, hd, ← htot, ← hsize] at h2
  · obtain ⟨-, b, h1, -⟩ := Plan.finite hn v 0 (fun i => (ieee (v i)).real)
      (fun i => |(ieee (v i)).real|) (seqPlan data.length) hnear (by rwa [zero_add, hd, ← hsize])
    rw [hev]
    exact ⟨b, h1⟩

/-- The bound is not zero and rounding does happen: 2^24 + 1 by the scalar loop. -/
example : (([0x4B800000#32, 0x3F800000] : List (BitVec 32)).foldl (fun a x => fadd a (id x))
    (fZero 32 false)) = 0x4B800000#32 := by decide +kernel

/-- **C109**, SIMD against scalar: the two finite results differ by at most the sum of the two
bounds. -/
theorem C109_simd_scalar (hn : n = 32 ∨ n = 64) (g : BitVec n → BitVec n)
    {sum : (BitVec n → BitVec n → BitVec n) → Vector (BitVec n) w → Res (BitVec n)} {p : Plan}
    (hp : Follows sum (fZero n false) p) (hl : p.lanes = List.range w) (c : Cfg) (fuel : Nat)
    (data : List (BitVec n)) (e : BitVec n) (hw : 0 < w) (hlen : data.length + w < c.usize)
    (hfuel : data.length / w < fuel) (hq : ∀ x ∈ data, (ieee (g x)).Finite)
    (hpad : data.length % w = 0 ∨ ieee (g e) = .fin 0) {r : BitVec n} {s t : ℚ}
    (hr : (do
      let (_, acc, _) ← simdReduce c fuel (simdIter (w := w) data (Packed.splat e))
        (Packed.splat (fZero n false)) () (fun _ a v => ok (Vector.zipWith fadd a (v.map g), ()))
      sum fadd acc) = ok r) (hs : ieee r = .fin s)
    (ht : ieee (data.foldl (fun a x => fadd a (g x)) (fZero n false)) = .fin t) :
    |(s - t : ℝ)| ≤ ((1 + fEps n) ^ ((data.length + w - 1) / w + p.depth) +
      (1 + fEps n) ^ data.length - 2) * (data.map fun x => |(ieee (g x)).real|).sum := by
  obtain ⟨r', h1, h2, -⟩ := C109_reduce hn g hp hl c fuel data e hw hlen hfuel hq hpad
  rw [h1] at hr
  injection hr with hr
  subst hr
  have h3 := h2 s hs
  have h4 := (C109_scalar hn g data hq).1 t ht
  generalize (data.map fun x => (ieee (g x)).real).sum = S at h3 h4
  have e1 : (s - t : ℝ) = (s - S) - (t - S) := by ring
  rw [e1]
  refine (abs_sub _ _).trans ?_
  linarith

/-- The factor in these bounds is about the number of roundings times `fEps`: at most twice
that for up to 2^23 (`f32`) or 2^52 (`f64`) roundings. -/
theorem C109_factor (D : Nat) (h : 2 * D * fEps n ≤ 1) :
    (1 + fEps n) ^ D - 1 ≤ 2 * D * fEps n := by
  have hp := fEps_pos (n := n)
  induction D with
  | zero => simp
  | succ D ih =>
    push_cast at h ⊢
    have h1 : 2 * D * fEps n ≤ 1 := by linarith
    have h2 := ih h1
    have h3 : 2 * D * fEps n * fEps n ≤ 1 * fEps n := mul_le_mul_of_nonneg_right h1 hp.le
    have h4 : (1 + fEps n) ^ D * fEps n ≤ (1 + 2 * D * fEps n) * fEps n :=
      mul_le_mul_of_nonneg_right (by linarith) hp.le
    rw [pow_succ, mul_add, mul_one]
    linarith

example : 2 * (258 : ℕ) * fEps 32 ≤ 1 := by norm_num [fEps]

end Faster
