import Verif.Props.FloatBound
import Verif.Props.Kernels
/-
Float kernels over zipped slices (C111).
-/
namespace Faster
open Res SIMDSized SIMDIterable SIMDIterator

variable {n w : Nat}

/-! ### Exact operations on integers -/

theorem fsub_int (hn : n = 32 ∨ n = 64) {x y : BitVec n} {a b : ℤ} (hx : ieee x = .fin a)
    (hy : ieee y = .fin b) (h : (a - b).natAbs ≤ 2 ^ (mantBits n + 1)) :
    ieee (fsub x y) = .fin ((a - b : ℤ) : ℚ) := by
  refine isRoundOf_exact hn (fofInt_exact hn h) ?_
  have := fsub_spec hn hx hy
  push_cast at this ⊢
  exact this

theorem fmul_int (hn : n = 32 ∨ n = 64) {x y : BitVec n} {a b : ℤ} (hx : ieee x = .fin a)
    (hy : ieee y = .fin b) (h : (a * b).natAbs ≤ 2 ^ (mantBits n + 1)) :
    ieee (fmul x y) = .fin ((a * b : ℤ) : ℚ) := by
  refine isRoundOf_exact hn (fofInt_exact hn h) ?_
  have := (fmul_spec hn hx hy).1
  push_cast at this ⊢
  exact this

/-- One lane of an accumulator which adds floats of integral value. -/
theorem acc_exact (hn : n = 32 ∨ n = 64) (z : BitVec n → ℤ) (us : List (Vector (BitVec n) w))
    (hz : ∀ x ∈ lanes us, ieee x = .fin (z x)) (acc : Vector (BitVec n) w) (k : ℤ) {i : Nat}
    (hi : i < w) (hk : ieee acc[i] = .fin k)
    (hb : k.natAbs + (us.map fun v => (z (v[i]?.getD 0)).natAbs).sum ≤ 2 ^ (mantBits n + 1)) :
    ieee (us.foldl (Vector.zipWith fadd) acc)[i] =
      .fin ((k + (us.map fun v => z (v[i]?.getD 0)).sum : ℤ) : ℚ) := by
  induction us generalizing acc k with
  | nil => simpa using hk
  | cons v us ih =>
    have hv := hz v[i] (by rw [lanes_cons]; exact List.mem_append_left _ (by simp))
    simp only [List.map_cons, List.sum_cons, hi, getElem?_pos, Option.getD_some,
      List.foldl_cons] at hb ih ⊢
    rw [← add_assoc]
    refine ih (fun x hx => hz x (by rw [lanes_cons]; exact List.mem_append_right _ hx))
      (Vector.zipWith fadd acc v) (k + z v[i]) ?_ (by omega)
    rw [Vector.getElem_zipWith]
    exact fadd_int hn hk hv (by omega)

theorem natAbs_sum_le {α : Type} (l : List α) (f : α → ℤ) :
    (l.map f).sum.natAbs ≤ (l.map fun x => (f x).natAbs).sum := by
  induction l with
  | nil => simp
  | cons x l ih => simp only [List.map_cons, List.sum_cons]; omega

theorem sum_columns {M : Type} [AddCommMonoid M] (vs : List (Vector (BitVec n) w)) (q : BitVec n → M) :
    ((List.range w).map fun i => (vs.map fun v => q (v[i]?.getD 0)).sum).sum =
      ((lanes vs).map q).sum := by
  have swap : ∀ (l : List (Vector (BitVec n) w)) (is : List Nat) (f : Vector (BitVec n) w → Nat → M),
      (is.map fun i => (l.map fun v => f v i).sum).sum = (l.map fun v => (is.map (f v)).sum).sum := by
    intro l is f
    induction l with
    | nil => simp
    | cons v l ih => simp only [List.map_cons, List.sum_cons, ← ih, List.sum_map_add]
  rw [swap vs (List.range w) (fun v i => q (v[i]?.getD 0))]
  unfold lanes
  rw [List.map_flatMap, List.flatMap_def, List.sum_flatten, List.map_map]
  congr 1
  apply List.map_congr_left
  intro v _
  simp only [Function.comp_apply]
  conv_rhs => rw [show v.toList = (List.range w).map (fun i => v[i]?.getD 0) from (range_vec v).symm]
  rw [List.map_map]
  rfl

/-! ### C111 -/

/-- **C111**, any sequence of vectors of floats of integral value: adding the vectors lane by
lane, then `sum`, is exact while the sum of the magnitudes is at most 2^24 (2^53). -/
theorem C111_vectors_int (hn : n = 32 ∨ n = 64)
    {sum : (BitVec n → BitVec n → BitVec n) → Vector (BitVec n) w → Res (BitVec n)} {p : Plan}
    (hp : Follows sum (fZero n false) p) (hl : p.lanes = List.range w) (z : BitVec n → ℤ)
    (us : List (Vector (BitVec n) w)) (hz : ∀ x ∈ lanes us, ieee x = .fin (z x))
    (hb : ((lanes us).map fun x => (z x).natAbs).sum ≤ 2 ^ (if n = 32 then 24 else 53)) :
    ∃ s, sum fadd (us.foldl (Vector.zipWith fadd) (Packed.splat (fZero n false))) = ok s ∧
      ieee s = .fin (((lanes us).map z).sum : ℤ) := by
  have hm : (if n = 32 then 24 else 53) = mantBits n + 1 := by
    rcases hn with rfl | rfl <;> rfl
  have hcol := sum_columns us fun x => (z x).natAbs
  have hle : ∀ i < w, (us.map fun v => (z (v[i]?.getD 0)).natAbs).sum ≤ 2 ^ (mantBits n + 1) := by
    intro i hi
    rw [← hm]
    refine le_trans ?_ (hcol ▸ hb)
    exact List.single_le_sum (fun _ _ => Nat.zero_le _) _
      (List.mem_map.2 ⟨i, List.mem_range.2 hi, rfl⟩)
  have h0 := (fzero_facts hn false).2
  obtain ⟨s, h1, h2⟩ := C63_integers hn hp hl
    (us.foldl (Vector.zipWith fadd) (Packed.splat (fZero n false)))
    (fun i => (us.map fun v => z (v[i]?.getD 0)).sum) (by
      intro i hi
      have := acc_exact hn z us hz (Packed.splat (fZero n false)) 0 hi
        (by simpa [Packed.splat] using h0) (by simpa using hle i hi)
      simpa using this) (by
      refine le_trans ?_ (hcol ▸ hb)
      apply List.sum_le_sum
      intro i _
      exact natAbs_sum_le _ _)
  exact ⟨s, h1, by rw [h2, sum_columns us z]⟩

section General
variable {I R α γ δ : Type} [SIMDSized I] [SIMDIterator I α w] [Packable α]
  [ZipRest R γ] [LawfulRest R γ δ w] {c : Cfg} {S : Nat → I} {r : R} {rows : List (α × δ)}
  {e : α × δ} {more : Nat → Prop}

/-- What a version of `sum` returns for the sum of the floats `g x` of the elements `x` of a
list: the exact sum up to `D` rounding errors. -/
def SumsTo (n D : Nat) {α : Type} (l : List α) (g : α → BitVec n) (r : Res (BitVec n)) : Prop :=
  ∃ b, r = ok b ∧
    (∀ s, ieee b = .fin s → |(s - (l.map fun x => (ieee (g x)).real).sum : ℝ)| ≤
      ((1 + fEps n) ^ D - 1) * (l.map fun x => |(ieee (g x)).real|).sum) ∧
    ((1 + fEps n) ^ D * (l.map fun x => |(ieee (g x)).real|).sum < fLimit n →
      ∃ s, ieee b = .fin s)

theorem calls_sumsTo {ρ : Type} (hn : n = 32 ∨ n = 64)
    {sum : (BitVec n → BitVec n → BitVec n) → Vector (BitVec n) w → Res (BitVec n)} {p : Plan}
    (hp : Follows sum (fZero n false) p) (hl : p.lanes = List.range w) (hw : 0 < w) (rows : List ρ)
    (e : ρ) (g : ρ → BitVec n) (hq : ∀ x ∈ rows, (ieee (g x)).Finite)
    (hpad : rows.length % w = 0 ∨ ieee (g e) = .fin 0) :
    SumsTo n ((rows.length + w - 1) / w + p.depth) rows g
      (sum fadd (((calls w (Packed.splat e) rows).map (Vector.map g)).foldl
        (Vector.zipWith fadd) (Packed.splat (fZero n false)))) := by
  have := C109_vectors hn hp hl ((calls w (Packed.splat e) rows).map (Vector.map g)) (by
    intro x hx
    rw [lanes_map] at hx
    obtain ⟨y, hy, rfl⟩ := List.mem_map.1 hx
    rcases mem_pad_zero e hw rows y hy with ⟨h1, rfl⟩ | h
    · rw [hpad.resolve_left h1]; trivial
    · exact hq y h)
  rw [lanes_map, List.map_map, List.map_map, List.length_map, calls_length hw] at this
  have h1 := sum_pad_zero (w := w) (fun x => (ieee (g x)).real) e hw rows
    (hpad.imp id fun h => by rw [h]; simp [FVal.real])
  have h2 := sum_pad_zero (w := w) (fun x => |(ieee (g x)).real|) e hw rows
    (hpad.imp id fun h => by rw [h]; simp [FVal.real])
  simp only [Function.comp_def] at this
  rw [h1, h2] at this
  exact this

/-- **C111**, any arity and any kind of iterators: `zip`, then
`simd_reduce(splat(0.0), |acc, t| acc + F(t)).sum()`, `F` lane-wise. -/
theorem C111_zip_reduce (hn : n = 32 ∨ n = 64)
    {sum : (BitVec n → BitVec n → BitVec n) → Vector (BitVec n) w → Res (BitVec n)} {p : Plan}
    (hp : Follows sum (fZero n false) p) (hl : p.lanes = List.range w)
    (hd : Driver c S (rows.map Prod.fst) ((Packed.splat e : Vector (α × δ) w).map Prod.fst) more)
    (hw : 0 < w)
    (hr : LawfulRest.Rep c r (rows.map Prod.snd) ((Packed.splat e : Vector (α × δ) w).map Prod.snd))
    (hu : rows.length + w < c.usize) (fuel : Nat) (F : Vector α w × γ → Vector (BitVec n) w)
    (g : α × δ → BitVec n) (hF : ∀ v : Vector (α × δ) w, F (packRow R v) = v.map g)
    (hfuel : rows.length / w < fuel) (hq : ∀ x ∈ rows, (ieee (g x)).Finite)
    (hpad : rows.length % w = 0 ∨ ieee (g e) = .fin 0) :
    SumsTo n ((rows.length + w - 1) / w + p.depth) rows g (do
      let z ← zip c (S 0) r
      let (_, acc, _) ← zsimdReduce c fuel z (Packed.splat (fZero n false)) ()
        (fun _ acc v => ok (Vector.zipWith fadd acc (F v), ()))
      sum fadd acc) := by
  rw [zip_reduce_vectors hd hw hr hu fuel F g hF (fun a v => Vector.zipWith fadd a v) _ hfuel]
  exact calls_sumsTo hn hp hl hw rows e g hq hpad

/-- **C111**, the same with a mapped zip. -/
theorem C111_zip_map_reduce (hn : n = 32 ∨ n = 64)
    {sum : (BitVec n → BitVec n → BitVec n) → Vector (BitVec n) w → Res (BitVec n)} {p : Plan}
    (hp : Follows sum (fZero n false) p) (hl : p.lanes = List.range w)
    (hd : Driver c S (rows.map Prod.fst) ((Packed.splat e : Vector (α × δ) w).map Prod.fst) more)
    (hw : 0 < w)
    (hr : LawfulRest.Rep c r (rows.map Prod.snd) ((Packed.splat e : Vector (α × δ) w).map Prod.snd))
    (hu : rows.length + w < c.usize) (fuel : Nat) (F : Vector α w × γ → Vector (BitVec n) w)
    (g : α × δ → BitVec n) (hF : ∀ v : Vector (α × δ) w, F (packRow R v) = v.map g)
    (hvec : w * Packable.size α < c.usize)
    (hfuel : rows.length / w < fuel) (hq : ∀ x ∈ rows, (ieee (g x)).Finite)
    (hpad : rows.length % w = 0 ∨ ieee (g e) = .fin 0) :
    SumsTo n ((rows.length + w - 1) / w + p.depth) rows g (do
      let z ← zip c (S 0) r
      let (_, acc, _) ← simdReduce c fuel (zsimdMap z () (pureFn F)) (Packed.splat (fZero n false)) ()
        (fun _ acc v => ok (Vector.zipWith fadd acc v, ()))
      sum fadd acc) := by
  rw [zip_map_reduce_vectors hd hw hr hu fuel F g hF
    (by rcases hn with rfl | rfl <;> decide) hvec (fun a v => Vector.zipWith fadd a v) _ hfuel]
  exact calls_sumsTo hn hp hl hw rows e g hq hpad

end General

/-! ### Dot products -/

/-- The smallest positive float: 2^-149 for `f32`, 2^-1074 for `f64`. -/
noncomputable def fTiny (n : Nat) : ℝ := if n = 32 then 1 / 2 ^ 149 else 1 / 2 ^ 1074

theorem fTiny_eq (hn : n = 32 ∨ n = 64) : fTiny n = 1 / 2 ^ fone n := by
  rcases hn with rfl | rfl
  · simp [fTiny, show fone 32 = 149 from rfl]
  · rw [show fone 64 = 1074 from rfl]; simp [fTiny]

/-- Below the normal numbers, rounding changes a number by at most half the smallest float. -/
theorem isRoundOf_tiny (hn : n = 32 ∨ n = 64) {v : ℝ} {r : BitVec n} (h : IsRoundOf v r)
    (hv : |v| < fNormal n) {b : ℚ} (hr : ieee r = .fin b) : |v - b| ≤ fTiny n / 2 := by
  have h2 := h.2
  rw [hr] at h2
  have hu : (0 : ℝ) < 2 ^ fone n := by positivity
  have hx : |v * 2 ^ fone n| < 2 ^ mantBits n := by
    rw [← fNormal_units hn, abs_mul, abs_of_pos hu]
    exact mul_lt_mul_of_pos_right hv hu
  have hround := abs_sub_round (v * 2 ^ fone n)
  generalize round (v * 2 ^ fone n) = z at hround
  have hz : z.natAbs ≤ 2 ^ (mantBits n + 1) := by
    have h3 : |(z : ℝ)| ≤ 2 ^ (mantBits n + 1) := by
      have h4 := abs_sub_abs_le_abs_sub (z : ℝ) (v * 2 ^ fone n)
      rw [abs_sub_comm] at h4
      have h5 : (1 : ℝ) ≤ 2 ^ mantBits n := one_le_pow₀ (by norm_num)
      rw [pow_succ]
      linarith
    have h4 : ((z.natAbs : ℕ) : ℝ) ≤ 2 ^ (mantBits n + 1) := by
      rw [Nat.cast_natAbs, Int.cast_abs]
      exact h3
    exact_mod_cast h4
  have hb : z.natAbs * 2 ^ 0 < funits (mantBits n) (infBits n) := by
    refine lt_of_le_of_lt (Nat.mul_le_mul_right _ hz) ?_
    rcases hn with rfl | rfl <;> decide +kernel
  obtain ⟨y, -, hy⟩ := exists_float hn (decide (z < 0)) hz hb
  have h6 := h2.2.1 y _ hy
  refine h6.trans ?_
  have e : (((if decide (z < 0) then -1 else 1 : ℚ) * (((z.natAbs * 2 ^ 0 : ℕ) : ℚ) / 2 ^ fone n) : ℚ) : ℝ) =
      z / 2 ^ fone n := by
    have : ((if decide (z < 0) then -1 else 1 : ℚ) * ((z.natAbs : ℕ) : ℚ)) = z := by
      rw [Nat.cast_natAbs, Int.cast_abs]
      by_cases h' : z < 0
      · rw [abs_of_neg (by exact_mod_cast h')]; simp [h']
      · rw [abs_of_nonneg (by exact_mod_cast not_lt.mp h')]; simp [h']
    rw [pow_zero, mul_one, ← mul_div_assoc, this]
    push_cast
    rfl
  rw [e, fTiny_eq hn]
  have : v - z / 2 ^ fone n = (v * 2 ^ fone n - z) / 2 ^ fone n := by field_simp
  rw [this, abs_div, abs_of_pos hu, one_div, div_eq_mul_inv, div_eq_mul_inv]
  have := mul_le_mul_of_nonneg_right hround (inv_pos.mpr hu).le
  linarith

/-- **Rounding error of one multiplication**: at most `fEps` of the exact product, and half
the smallest float if it is below the normal numbers. -/
theorem fmul_error (hn : n = 32 ∨ n = 64) {x y : BitVec n} {a b s : ℚ} (hx : ieee x = .fin a)
    (hy : ieee y = .fin b) (hs : ieee (fmul x y) = .fin s) :
    |(s - a * b : ℝ)| ≤ fEps n * |(a * b : ℝ)| + fTiny n / 2 := by
  have hr := (fmul_spec hn hx hy).1
  have hp := fEps_pos (n := n)
  have ht : 0 < fTiny n := by rw [fTiny_eq hn]; positivity
  rw [abs_sub_comm]
  by_cases h : |(a * b : ℝ)| < fNormal n
  · have := isRoundOf_tiny hn hr h hs
    have := mul_nonneg hp.le (abs_nonneg (a * b : ℝ))
    linarith
  · have h2 := hr.2
    rw [hs] at h2
    obtain ⟨t, h3, h4⟩ := isRoundOf_rel hn hr (not_lt.mp h) h2.1
    rw [hs] at h3
    injection h3 with h3
    rw [h3]
    rw [fEps_eq hn, one_div, mul_comm _ |(a * b : ℝ)|, ← div_eq_mul_inv]
    linarith

theorem real_of_finite {x : BitVec n} (h : (ieee x).Finite) :
    ∃ a : ℚ, ieee x = .fin a ∧ (ieee x).real = a := by
  cases h' : ieee x with
  | nan => rw [h'] at h; exact h.elim
  | inf t => rw [h'] at h; exact h.elim
  | fin a => exact ⟨a, rfl, rfl⟩

/-- Sums of terms which are themselves rounded. -/
theorem sumsTo_rounded {α : Type} {D : Nat} {l : List α} {g : α → BitVec n} {r : Res (BitVec n)}
    (h : SumsTo n D l g r) (q : α → ℝ) (t : ℝ)
    (hq : ∀ x ∈ l, |(ieee (g x)).real - q x| ≤ fEps n * |q x| + t) :
    ∃ b, r = ok b ∧
      (∀ s, ieee b = .fin s → |(s - (l.map q).sum : ℝ)| ≤
        ((1 + fEps n) ^ (D + 1) - 1) * (l.map fun x => |q x|).sum +
          (1 + fEps n) ^ D * (l.length * t)) ∧
      ((1 + fEps n) ^ (D + 1) * (l.map fun x => |q x|).sum + (1 + fEps n) ^ D * (l.length * t) <
        fLimit n → ∃ s, ieee b = .fin s) := by
  obtain ⟨b, h1, h2, h3⟩ := h
  have key : |(l.map fun x => (ieee (g x)).real).sum - (l.map q).sum| ≤
        fEps n * (l.map fun x => |q x|).sum + l.length * t ∧
      (l.map fun x => |(ieee (g x)).real|).sum ≤
        (1 + fEps n) * (l.map fun x => |q x|).sum + l.length * t := by
    clear h1 h2 h3
    induction l with
    | nil => simp
    | cons x l ih =>
      obtain ⟨i1, i2⟩ := ih fun y hy => hq y (by simp [hy])
      have i3 := hq x (by simp)
      simp only [List.map_cons, List.sum_cons, List.length_cons]
      push_cast
      constructor
      · have e : (ieee (g x)).real + (l.map fun x => (ieee (g x)).real).sum -
            (q x + (l.map q).sum) = ((ieee (g x)).real - q x) +
            ((l.map fun x => (ieee (g x)).real).sum - (l.map q).sum) := by ring
        rw [e]
        refine (abs_add_le _ _).trans ?_
        linarith
      · have i4 := abs_sub_abs_le_abs_sub (ieee (g x)).real (q x)
        linarith
  obtain ⟨k1, k2⟩ := key
  have hE := one_le_eps_pow (n := n) D
  set E := (1 + fEps n) ^ D with hEdef
  have hmul : E * (l.map fun x => |(ieee (g x)).real|).sum ≤
      E * ((1 + fEps n) * (l.map fun x => |q x|).sum + l.length * t) :=
    mul_le_mul_of_nonneg_left k2 (by linarith)
  have hmul' : (E - 1) * (l.map fun x => |(ieee (g x)).real|).sum ≤
      (E - 1) * ((1 + fEps n) * (l.map fun x => |q x|).sum + l.length * t) :=
    mul_le_mul_of_nonneg_left k2 (by linarith)
  refine ⟨b, h1, fun s hs => ?_, fun hb => h3 (lt_of_le_of_lt (hmul.trans (le_of_eq ?_)) hb)⟩
  · have h4 := h2 s hs
    have e : (s - (l.map q).sum : ℝ) = (s - (l.map fun x => (ieee (g x)).real).sum) +
        ((l.map fun x => (ieee (g x)).real).sum - (l.map q).sum) := by ring
    rw [e, pow_succ, ← hEdef]
    refine (abs_add_le _ _).trans ?_
    nlinarith
  · rw [pow_succ, ← hEdef]
    ring

/-- **C111**, dot products of floats: `(xs, ys).zip().simd_reduce(splat(0.0), |acc, (x, y)|
acc + x * y).sum()` is the exact dot product up to one rounding per product, one per vector and
those of `sum`; products below the normal numbers add at most half the smallest float each. -/
theorem C111_dot_product (hn : n = 32 ∨ n = 64)
    {sum : (BitVec n → BitVec n → BitVec n) → Vector (BitVec n) w → Res (BitVec n)} {p : Plan}
    (hp : Follows sum (fZero n false) p) (hl : p.lanes = List.range w) (c : Cfg) (fuel : Nat)
    (xs ys : List (BitVec n)) (h : xs.length = ys.length) (hw : 0 < w)
    (hu : xs.length + w < c.usize) (hfuel : xs.length / w < fuel)
    (hx : ∀ x ∈ xs, (ieee x).Finite) (hy : ∀ y ∈ ys, (ieee y).Finite)
    (hxy : ∀ t ∈ xs.zip ys, |(ieee t.1).real * (ieee t.2).real| < fLimit n) :
    let D := (xs.length + w - 1) / w + p.depth
    let dot := ((xs.zip ys).map fun t => (ieee t.1).real * (ieee t.2).real).sum
    let size := ((xs.zip ys).map fun t => |(ieee t.1).real * (ieee t.2).real|).sum
    ∃ b, (do
      let z ← zip c (simdIter (w := w) xs (Packed.splat (fZero n false)))
        (simdIter (w := w) ys (Packed.splat (fZero n false)), ())
      let (_, acc, _) ← zsimdReduce c fuel z (Packed.splat (fZero n false)) ()
        (fun _ acc (v : Vector (BitVec n) w × Vector (BitVec n) w × Unit) =>
          ok (Vector.zipWith fadd acc (Vector.zipWith fmul v.1 v.2.1), ()))
      sum fadd acc) = ok b ∧
      (∀ s, ieee b = .fin s → |(s - dot : ℝ)| ≤ ((1 + fEps n) ^ (D + 1) - 1) * size +
        (1 + fEps n) ^ D * (xs.length * (fTiny n / 2))) ∧
      ((1 + fEps n) ^ (D + 1) * size + (1 + fEps n) ^ D * (xs.length * (fTiny n / 2)) < fLimit n →
        ∃ s, ieee b = .fin s) := by
  intro D dot size
  obtain ⟨h1, h2, h3⟩ := rows2_spec c xs ys (Packed.splat (fZero n false) : Vector (BitVec n) w)
    (Packed.splat (fZero n false)) 0 h hw hu
  have hsplat : Vector.zipWith (fun a b => (a, b, ())) (Packed.splat (fZero n false) : Vector (BitVec n) w)
      (Packed.splat (fZero n false) : Vector (BitVec n) w) =
      (Packed.splat (fZero n false, fZero n false, ()) : Vector (BitVec n × BitVec n × Unit) w) := by
    ext i hi <;> simp [Packed.splat]
  simp only [hsplat] at h2 h3
  have hz := (fzero_facts hn false).2
  have hrows : ∀ t ∈ rows2 xs ys, (ieee t.1).Finite ∧ (ieee t.2.1).Finite ∧
      |(ieee t.1).real * (ieee t.2.1).real| < fLimit n := by
    intro t ht
    have : (t.1, t.2.1) ∈ xs.zip ys := by
      unfold rows2 at ht
      rw [← List.map_uncurry_zip_eq_zipWith] at ht
      obtain ⟨q, hq, rfl⟩ := List.mem_map.1 ht
      exact hq
    exact ⟨hx _ (List.of_mem_zip this).1, hy _ (List.of_mem_zip this).2, hxy _ this⟩
  have hfin : ∀ t ∈ rows2 xs ys, (ieee (fmul t.1 t.2.1)).Finite := by
    intro t ht
    obtain ⟨f1, f2, f3⟩ := hrows t ht
    obtain ⟨a, ha, ha'⟩ := real_of_finite f1
    obtain ⟨b, hb, hb'⟩ := real_of_finite f2
    have := (fmul_spec hn ha hb).1.2
    rw [ha', hb'] at f3
    cases hs : ieee (fmul t.1 t.2.1) with
    | nan => rw [hs] at this; exact this.elim
    | inf u => rw [hs] at this; exact absurd f3 (not_lt.mpr this)
    | fin s => trivial
  have := C111_zip_reduce hn hp hl h2 hw h3 (by omega) fuel
    (fun v => Vector.zipWith fmul v.1 v.2.1) (fun t => fmul t.1 t.2.1)
    (by intro v; ext i hi; simp [packRow, LawfulRest.pack]) (by rwa [h1]) hfin
    (.inr (by
      refine isRoundOf_exact hn hz ?_
      have := (fmul_spec hn hz hz).1
      simpa using this))
  have := sumsTo_rounded this (fun t => (ieee t.1).real * (ieee t.2.1).real) (fTiny n / 2) (by
    intro t ht
    obtain ⟨f1, f2, -⟩ := hrows t ht
    obtain ⟨a, ha, ha'⟩ := real_of_finite f1
    obtain ⟨b, hb, hb'⟩ := real_of_finite f2
    obtain ⟨s, hs, hs'⟩ := real_of_finite (hfin t ht)
    simp only [hs', ha', hb']
    exact fmul_error hn ha hb hs)
  have e : ∀ f : BitVec n × BitVec n × Unit → ℝ,
      ((rows2 xs ys).map f).sum = ((xs.zip ys).map fun t => f (t.1, t.2, ())).sum := by
    intro f
    congr 1
    apply List.ext_getElem <;> simp [rows2]
  rw [h1, e, e] at this
  exact this

/-- Non-vacuity: 0.1·3 + 0.2·5 + 0.3·7 in vectors of two, 3.4 to within one unit in the last
place. -/
example : (do
    let z ← zip debug64 (simdIter (w := 2) [0x3DCCCCCD#32, 0x3E4CCCCD, 0x3E99999A]
      (Packed.splat (fZero 32 false)))
      (simdIter (w := 2) [0x40400000#32, 0x40A00000, 0x40E00000] (Packed.splat (fZero 32 false)), ())
    let (_, acc, _) ← zsimdReduce debug64 9 z (Packed.splat (fZero 32 false)) ()
      (fun _ acc (v : Vector (BitVec 32) 2 × Vector (BitVec 32) 2 × Unit) =>
        ok (Vector.zipWith fadd acc (Vector.zipWith fmul v.1 v.2.1), ()))
    sumFallbackF fadd (fZero 32 false) acc) = ok 0x4059999A#32 := by decide +kernel

end Faster
