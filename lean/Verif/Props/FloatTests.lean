import Verif.FloatTests
import Verif.Props.FloatBound
import Verif.Props.Bench
import Verif.Props.Docs
/-
The float tests of `src/intrin` hold for any limit of their loops (C126).
-/
namespace Faster
open Res

variable {n w : Nat}

/-! ### Literals, comparisons and assertions -/

theorem fLimit_large (hn : n = 32 ∨ n = 64) : (2 : ℝ) ^ 127 ≤ fLimit n := by
  rcases hn with rfl | rfl
  · simp only [fLimit]; norm_num
  · have h1 : (2 : ℝ) ^ 970 ≤ 2 ^ 1023 := pow_le_pow_right₀ (by norm_num) (by norm_num)
    have h2 : (2 : ℝ) ^ 127 ≤ 2 ^ 970 := pow_le_pow_right₀ (by norm_num) (by norm_num)
    have h3 : (2 : ℝ) ^ 1024 = 2 ^ 1023 * 2 := pow_succ _ _
    have h4 : (2 : ℝ) * 2 ^ 970 ≤ 2 ^ 1023 := by
      rw [mul_comm, ← pow_succ]; exact pow_le_pow_right₀ (by norm_num) (by norm_num)
    simp only [fLimit]
    rw [if_neg (by decide), h3]
    generalize (2 : ℝ) ^ 970 = u at *
    generalize (2 : ℝ) ^ 1023 = v at *
    linarith

theorem flit_round (hn : n = 32 ∨ n = 64) (p : Nat) {q : Nat} (hq : 0 < q) :
    IsRoundOf ((p : ℝ) / q) (flit n p q) := by
  have := (fpack_spec hn false (p * 2 ^ fone n) hq).1
  simp only [Bool.false_eq_true, if_false, one_mul] at this
  have e : ((p * 2 ^ fone n : ℕ) : ℝ) / q / 2 ^ fone n = (p : ℝ) / q := by
    push_cast
    field_simp
  rwa [e] at this

/-- The value of a literal. -/
theorem flit_val (hn : n = 32 ∨ n = 64) (p : Nat) {q : Nat} (hq : 0 < q)
    (hlo : (1 : ℝ) / 2 ^ 126 ≤ (p : ℝ) / q) (hhi : (p : ℝ) / q ≤ 2 ^ 100) :
    ∃ b : ℚ, ieee (flit n p q) = .fin b ∧ |(p : ℝ) / q - b| ≤ (p : ℝ) / q / 2 ^ 24 := by
  have h0 : (0 : ℝ) ≤ (p : ℝ) / q := by positivity
  obtain ⟨b, hb, he⟩ := isRoundOf_rel hn (flit_round hn p hq)
    (by
      rw [abs_of_nonneg h0]
      refine le_trans ?_ hlo
      rcases hn with rfl | rfl
      · simp [fNormal]
      · simp only [fNormal]
        rw [if_neg (by decide)]
        apply one_div_le_one_div_of_le (by positivity)
        exact pow_le_pow_right₀ (by norm_num) (by norm_num))
    (by
      rw [abs_of_nonneg h0]
      exact lt_of_le_of_lt hhi (lt_of_lt_of_le (by norm_num) (fLimit_large hn)))
  refine ⟨b, hb, le_trans he ?_⟩
  rw [abs_of_nonneg h0]
  apply div_le_div_of_nonneg_left h0 (by positivity)
  apply pow_le_pow_right₀ (by norm_num)
  rcases hn with rfl | rfl <;> decide

theorem assert_ok {b : Bool} (h : b = true) : assert b = ok () := by
  simp [assert, h]

theorem flt_fin (hn : n = 32 ∨ n = 64) {x y : BitVec n} {a b : ℚ} (hx : ieee x = .fin a)
    (hy : ieee y = .fin b) : flt x y = true ↔ a < b := by
  rw [flt_iff hn, hx, hy]
  simp [FVal.le]

theorem assertEq_fin (hn : n = 32 ∨ n = 64) {x : BitVec n} {o : Vector (BitVec n) w} {k : ℚ}
    (hx : ieee x = .fin k) (ho : ∀ i (h : i < w), ieee o[i] = .fin k) :
    assertEq (Packed.splat x) o = ok () := by
  unfold assertEq
  apply assert_ok
  rw [Vector.all_eq_true]
  intro i hi
  simp only [Vector.getElem_zip]
  rw [feq_iff hn, splat_get, hx, ho i hi]
  simp

/-- The sum of an integer of few digits and a fraction. -/
theorem fadd_near (hn : n = 32 ∨ n = 64) {x y : BitVec n} {a b : ℚ} (hx : ieee x = .fin a)
    (hy : ieee y = .fin b) (h : |(a + b : ℝ)| ≤ 2 ^ (mantBits n - 3)) :
    ∃ s : ℚ, ieee (fadd x y) = .fin s ∧ |(s - (a + b) : ℝ)| ≤ 1 / 16 := by
  have hlim : |(a + b : ℝ)| < fLimit n := by
    refine lt_of_le_of_lt h (lt_of_lt_of_le ?_ (fLimit_large hn))
    rcases hn with rfl | rfl <;> norm_num [mantBits]
  have h2 := (fadd_spec hn hx hy).2
  cases hs : ieee (fadd x y) with
  | nan => rw [hs] at h2; exact h2.elim
  | inf t => rw [hs] at h2; exact absurd hlim (not_lt.mpr h2)
  | fin s =>
    refine ⟨s, rfl, le_trans (fadd_error hn hx hy hs) ?_⟩
    refine le_trans (mul_le_mul_of_nonneg_left h fEps_pos.le) ?_
    rcases hn with rfl | rfl
    · simp only [fEps, mantBits]; norm_num
    · simp only [fEps, mantBits]; rw [if_neg (by decide)]; norm_num

/-! ### Rounding -/

/-- `k` is the integer which the function returns for `v`, on every target. -/
def Lands : UnFn → ℚ → ℤ → Prop
  | .round, v, k => |v - k| < 1 / 2
  | f, v, k => directed f v k

theorem nearest_unique {v : ℚ} {k j : ℤ} (hk : |v - k| < 1 / 2) (hj : IsNearest v j) : j = k := by
  have h1 := hj k
  have h2 : |(j : ℚ) - k| < 1 := by
    calc |(j : ℚ) - k| = |(v - k) - (v - j)| := by congr 1; ring
      _ ≤ |v - k| + |v - j| := abs_sub _ _
      _ < 1 := by linarith
  rw [← Int.cast_sub, ← Int.cast_abs] at h2
  have h3 : |j - k| < 1 := by exact_mod_cast h2
  rw [Int.abs_lt_one_iff] at h3
  omega

theorem roundOf_lands (opt : Bool) (r : UnRow) (hr : r ∈ roundRows ++ roundRowsUnknown)
    {x : BitVec (8 * r.size)} {v : ℚ} (hx : ieee x = .fin v) {k : ℤ} (hk : Lands r.fn v k) :
    ∃ o, roundOf opt r (Packed.splat x) = ok o ∧ ∀ i (h : i < r.width), ieee o[i] = .fin k := by
  have key : ∀ P : ℚ → ℤ → Prop, (∀ j, P v j → j = k) →
      ∀ {o : Vector (BitVec (8 * r.size)) r.width},
      (∀ i (h : i < r.width), IsRounded P (Packed.splat x : Vector _ r.width)[i] o[i]) →
      ∀ i (h : i < r.width), ieee o[i] = .fin k := by
    intro P hP o ho i hi
    have := ho i hi
    rw [splat_get] at this
    unfold IsRounded at this
    rw [hx] at this
    obtain ⟨-, j, h1, h2⟩ := this
    rw [h1, hP j h2]
  have hd : r.fn ≠ .round → ∀ j, directed r.fn v j → j = k := by
    intro hf j hj
    have : directed r.fn v k := by
      revert hk hf
      cases r.fn <;> simp [Lands]
    exact directed_unique hj this
  have hro : r.fn = .round → ∀ j, IsNearest v j → j = k := by
    intro hf j hj
    rw [hf] at hk
    exact nearest_unique hk hj
  have hopt : r ∈ roundRows → ∃ o, roundOptimized r (Packed.splat x) = ok o ∧
      ∀ i (h : i < r.width), ieee o[i] = .fin k := by
    intro hr
    by_cases hf : r.fn = .round
    · obtain ⟨o, h1, h2⟩ := C68_optimized r hr hf (Packed.splat x)
      exact ⟨o, h1, key _ (fun j h => hro hf j h.1) h2⟩
    · obtain ⟨o, h1, h2⟩ := C67_optimized r hr hf (Packed.splat x)
      exact ⟨o, h1, key _ (hd hf) h2⟩
  have hfall : ∃ o, roundFallback r (Packed.splat x) = ok o ∧
      ∀ i (h : i < r.width), ieee o[i] = .fin k := by
    by_cases hf : r.fn = .round
    · obtain ⟨o, h1, h2⟩ := C68_fallback r (List.mem_append.1 hr) hf (Packed.splat x)
      exact ⟨o, h1, key _ (fun j h => hro hf j h.1) h2⟩
    · obtain ⟨o, h1, h2⟩ := C67_fallback r (List.mem_append.1 hr) hf (Packed.splat x)
      exact ⟨o, h1, key _ (hd hf) h2⟩
  unfold roundOf
  split
  · rename_i h
    rcases List.mem_append.1 hr with hr | hr
    · exact hopt hr
    · rw [roundRowsUnknown_mm r hr] at h
      simp at h
  · exact hfall

/-- The values of the literals, and of the sums with integers of at most 20 or 49 binary digits. -/
theorem fadd_lit (hn : n = 32 ∨ n = 64) {x : BitVec n} {i : ℤ} (hx : ieee x = .fin i)
    (hi : |i| < 2 ^ (mantBits n - 3)) (p : Nat) (hp : 0 < p) (hp' : p < 10) :
    (∃ s : ℚ, ieee (fadd x (flit n p 10)) = .fin s ∧ |s - (i + p / 10)| < 1 / 12) ∧
    (∃ s : ℚ, ieee (fsub x (flit n p 10)) = .fin s ∧ |s - (i - p / 10)| < 1 / 12) := by
  have hp1 : (1 : ℝ) ≤ p := by exact_mod_cast hp
  have hp2 : (p : ℝ) ≤ 9 := by exact_mod_cast Nat.le_of_lt_succ hp'
  obtain ⟨b, hb, he⟩ := flit_val hn p (q := 10) (by norm_num)
    (by push_cast; norm_num; linarith) (by push_cast; norm_num; linarith)
  push_cast at he
  have he' := abs_le.mp he
  have hb1 : (1 : ℝ) / 11 ≤ b := by norm_num at he' ⊢; linarith
  have hb2 : (b : ℝ) ≤ 10 / 11 := by norm_num at he' ⊢; linarith
  have hi' : |((i : ℚ) : ℝ)| ≤ 2 ^ (mantBits n - 3) - 1 := by
    have : |i| ≤ 2 ^ (mantBits n - 3) - 1 := by omega
    have : ((|i| : ℤ) : ℝ) ≤ ((2 ^ (mantBits n - 3) - 1 : ℤ) : ℝ) := by exact_mod_cast this
    push_cast at this ⊢
    exact this
  have hi1 := abs_le.mp hi'
  have fin : ∀ {s t : ℚ}, |((s : ℝ) - t)| ≤ 1 / 16 → ∀ {u : ℚ}, |(t : ℝ) - u| ≤ 1 / 1000 →
      |s - u| < 1 / 12 := by
    intro s t h1 u h2
    have h : |(s : ℝ) - u| < 1 / 12 := by
      calc |(s : ℝ) - u| = |((s : ℝ) - t) + (t - u)| := by congr 1; ring
        _ ≤ |(s : ℝ) - t| + |(t : ℝ) - u| := abs_add_le _ _
        _ < 1 / 12 := by norm_num at h1 h2 ⊢; linarith
    have h' : ((|s - u| : ℚ) : ℝ) < ((1 / 12 : ℚ) : ℝ) := by push_cast; exact h
    exact_mod_cast h'
  constructor
  · obtain ⟨s, hs, h⟩ := fadd_near hn hx hb (by rw [abs_le]; constructor <;> linarith)
    refine ⟨s, hs, fin (t := i + b) (by push_cast at h ⊢; exact h) ?_⟩
    push_cast
    rw [abs_le]; norm_num at he' ⊢; constructor <;> linarith
  · have hneg := fneg_spec hn hb
    obtain ⟨s, hs, h⟩ := fadd_near hn hx hneg (by rw [abs_le, Rat.cast_neg]; constructor <;> linarith)
    refine ⟨s, hs, fin (t := i - b) (by push_cast at h ⊢; rw [← sub_eq_add_neg] at h; exact h) ?_⟩
    push_cast
    rw [abs_le]; norm_num at he' ⊢; constructor <;> linarith

theorem lands_self {f : UnFn} (hf : f = .round ∨ f = .ceil ∨ f = .floor ∨ f = .trunc) (k : ℤ) :
    Lands f k k := by
  rcases hf with rfl | rfl | rfl | rfl <;> simp [Lands, directed]

/-- Where the functions land from `i + 0.4` and `i + 0.8`. -/
theorem lands_up {f : UnFn} (hf : f = .round ∨ f = .ceil ∨ f = .floor ∨ f = .trunc) {i : ℤ}
    (hi : 0 ≤ i) {s : ℚ} :
    (|s - (i + 4 / 10)| < 1 / 12 → Lands f s (if (expectUp f).1 then i + 1 else i)) ∧
    (|s - (i + 8 / 10)| < 1 / 12 → Lands f s (if (expectUp f).2 then i + 1 else i)) := by
  have hi' : (0 : ℚ) ≤ i := by exact_mod_cast hi
  constructor <;> intro h <;> rw [abs_lt] at h <;> rcases hf with rfl | rfl | rfl | rfl <;>
    simp only [Lands, directed, expectUp, if_true, if_false, Bool.false_eq_true]
  · rw [abs_lt]; constructor <;> linarith
  · rw [eq_comm, Int.ceil_eq_iff]; push_cast; constructor <;> linarith
  · rw [eq_comm, Int.floor_eq_iff]; constructor <;> linarith
  · rw [if_pos (by linarith), eq_comm, Int.floor_eq_iff]; constructor <;> linarith
  · rw [abs_lt]; push_cast; constructor <;> linarith
  · rw [eq_comm, Int.ceil_eq_iff]; push_cast; constructor <;> linarith
  · rw [eq_comm, Int.floor_eq_iff]; constructor <;> linarith
  · rw [if_pos (by linarith), eq_comm, Int.floor_eq_iff]; constructor <;> linarith

/-- Where the functions land from `i - 0.4` and `i - 0.8`. -/
theorem lands_down {f : UnFn} (hf : f = .round ∨ f = .ceil ∨ f = .floor ∨ f = .trunc) {i : ℤ}
    (hi : i ≤ 0) {s : ℚ} :
    (|s - (i - 4 / 10)| < 1 / 12 → Lands f s (if (expectDown f).1 then i - 1 else i)) ∧
    (|s - (i - 8 / 10)| < 1 / 12 → Lands f s (if (expectDown f).2 then i - 1 else i)) := by
  have hi' : (i : ℚ) ≤ 0 := by exact_mod_cast hi
  constructor <;> intro h <;> rw [abs_lt] at h <;> rcases hf with rfl | rfl | rfl | rfl <;>
    simp only [Lands, directed, expectDown, if_true, if_false, Bool.false_eq_true]
  · rw [abs_lt]; constructor <;> linarith
  · rw [eq_comm, Int.ceil_eq_iff]; constructor <;> linarith
  · rw [eq_comm, Int.floor_eq_iff]; push_cast; constructor <;> linarith
  · rw [if_neg (by push Not; linarith), eq_comm, Int.ceil_eq_iff]; constructor <;> linarith
  · rw [abs_lt]; push_cast; constructor <;> linarith
  · rw [eq_comm, Int.ceil_eq_iff]; constructor <;> linarith
  · rw [eq_comm, Int.floor_eq_iff]; push_cast; constructor <;> linarith
  · rw [if_neg (by push Not; linarith), eq_comm, Int.ceil_eq_iff]; constructor <;> linarith

theorem roundRows_all : ∀ r ∈ roundRows ++ roundRowsUnknown, (8 * r.size = 32 ∨ 8 * r.size = 64) ∧
    (r.fn = .round ∨ r.fn = .ceil ∨ r.fn = .floor ∨ r.fn = .trunc) := by
  decide +kernel

theorem fofInt_val (hn : n = 32 ∨ n = 64) {L : ℤ} (hL : |L| ≤ 2 ^ (mantBits n - 3) + 1) :
    ieee (fofInt n L) = .fin (L : ℚ) := by
  apply fofInt_exact hn
  have h1 : (L.natAbs : ℤ) ≤ 2 ^ (mantBits n - 3) + 1 := by rw [Int.natCast_natAbs]; exact hL
  have h2 : (2 : ℤ) ^ (mantBits n - 3) + 1 ≤ 2 ^ (mantBits n + 1) := by
    rcases hn with rfl | rfl <;> norm_num [mantBits]
  have h3 : (L.natAbs : ℤ) ≤ ((2 ^ (mantBits n + 1) : ℕ) : ℤ) := by push_cast; omega
  exact_mod_cast h3

theorem fadd_one (hn : n = 32 ∨ n = 64) {x : BitVec n} {i : ℤ} (hx : ieee x = .fin i)
    (hi : |i| < 2 ^ (mantBits n - 3)) :
    ieee (fadd x (fofInt n 1)) = .fin ((i + 1 : ℤ) : ℚ) ∧
    ieee (fsub x (fofInt n 1)) = .fin ((i - 1 : ℤ) : ℚ) := by
  have h1 : ieee (fofInt n 1) = .fin ((1 : ℤ) : ℚ) :=
    fofInt_val hn (by rw [abs_one]; exact le_add_of_nonneg_left (by positivity))
  have hb : ∀ j : ℤ, |j| ≤ 1 → (i + j).natAbs ≤ 2 ^ (mantBits n + 1) := by
    intro j hj
    have e : (((i + j).natAbs : ℕ) : ℤ) ≤ 2 ^ (mantBits n + 1) := by
      rw [Int.natCast_natAbs]
      refine le_trans (abs_add_le i j) ?_
      have h2 : (2 : ℤ) ^ (mantBits n - 3) ≤ 2 ^ (mantBits n + 1) :=
        pow_le_pow_right₀ (by norm_num) (by omega)
      omega
    exact_mod_cast e
  refine ⟨fadd_int hn hx h1 (hb 1 (by simp)), ?_⟩
  have h2 := fneg_spec hn h1
  have h3 : ieee (fneg (fofInt n 1)) = .fin ((-1 : ℤ) : ℚ) := by rw [h2]; simp
  have := fadd_int hn hx h3 (hb (-1) (by simp))
  rw [← sub_eq_add_neg] at this
  exact this

/-- **C126**, `round`, `trunc`, `ceil`, `floor`: the first loop of the tests passes for every limit
of at most 20 (`f32s`) or 49 (`f64s`) binary digits, with and without the instructions. -/
theorem C126_round_up (opt : Bool) (r : UnRow) (hr : r ∈ roundRows ++ roundRowsUnknown) (L : ℤ)
    (h0 : 0 ≤ L) (hL : L ≤ 2 ^ (mantBits (8 * r.size) - 3)) (fuel : Nat) :
    ∀ (i : ℤ) (x : BitVec (8 * r.size)), 0 ≤ i → ieee x = .fin i → L - i < fuel → 0 < fuel →
      roundTestUp opt r (fofInt _ L) fuel x = ok () := by
  obtain ⟨hn, hf⟩ := roundRows_all r hr
  have hlim : ieee (fofInt (8 * r.size) L) = .fin (L : ℚ) :=
    fofInt_val hn (by rw [abs_of_nonneg h0]; omega)
  induction fuel with
  | zero => intro i x _ _ _ h; omega
  | succ fuel ih =>
    intro i x hi hx hfuel _
    unfold roundTestUp
    split
    · rename_i hlt
      rw [flt_fin hn hx hlim] at hlt
      have hlt : i < L := by exact_mod_cast hlt
      have hib : |i| < 2 ^ (mantBits (8 * r.size) - 3) := by rw [abs_of_nonneg hi]; omega
      obtain ⟨o1, e1, v1⟩ := roundOf_lands opt r hr hx (lands_self hf i)
      obtain ⟨s2, hs2, hd2⟩ := (fadd_lit hn hx hib 4 (by norm_num) (by norm_num)).1
      obtain ⟨o2, e2, v2⟩ := roundOf_lands opt r hr hs2 ((lands_up hf hi).1 (by exact_mod_cast hd2))
      obtain ⟨s3, hs3, hd3⟩ := (fadd_lit hn hx hib 8 (by norm_num) (by norm_num)).1
      obtain ⟨o3, e3, v3⟩ := roundOf_lands opt r hr hs3 ((lands_up hf hi).2 (by exact_mod_cast hd3))
      have hone := (fadd_one hn hx hib).1
      have hsel : ∀ b : Bool, ieee (if b then fadd x (fofInt (8 * r.size) 1) else x) =
          .fin (((if b then i + 1 else i : ℤ)) : ℚ) := by
        intro b; cases b
        · simpa using hx
        · simpa using hone
      simp only [e1, e2, e3, Res.ok_bind, assertEq_fin hn hx v1, assertEq_fin hn (hsel _) v2,
        assertEq_fin hn (hsel _) v3]
      by_cases hz : fuel = 0
      · exfalso; subst hz; push_cast at hfuel; omega
      · exact ih (i + 1) _ (by omega) hone (by push_cast at hfuel; omega) (by omega)
    · rfl

/-- **C126**, the second loop of these tests. -/
theorem C126_round_down (opt : Bool) (r : UnRow) (hr : r ∈ roundRows ++ roundRowsUnknown) (L : ℤ)
    (h0 : L ≤ 0) (hL : -L ≤ 2 ^ (mantBits (8 * r.size) - 3)) (fuel : Nat) :
    ∀ (i : ℤ) (x : BitVec (8 * r.size)), i ≤ 0 → ieee x = .fin i → i - L < fuel → 0 < fuel →
      roundTestDown opt r (fofInt _ L) fuel x = ok () := by
  obtain ⟨hn, hf⟩ := roundRows_all r hr
  have hlim : ieee (fofInt (8 * r.size) L) = .fin (L : ℚ) :=
    fofInt_val hn (by rw [abs_of_nonpos h0]; omega)
  induction fuel with
  | zero => intro i x _ _ _ h; omega
  | succ fuel ih =>
    intro i x hi hx hfuel _
    unfold roundTestDown
    split
    · rename_i hlt
      rw [flt_fin hn hlim hx] at hlt
      have hlt : L < i := by exact_mod_cast hlt
      have hib : |i| < 2 ^ (mantBits (8 * r.size) - 3) := by rw [abs_of_nonpos hi]; omega
      obtain ⟨o1, e1, v1⟩ := roundOf_lands opt r hr hx (lands_self hf i)
      obtain ⟨s2, hs2, hd2⟩ := (fadd_lit hn hx hib 4 (by norm_num) (by norm_num)).2
      obtain ⟨o2, e2, v2⟩ := roundOf_lands opt r hr hs2 ((lands_down hf hi).1 (by exact_mod_cast hd2))
      obtain ⟨s3, hs3, hd3⟩ := (fadd_lit hn hx hib 8 (by norm_num) (by norm_num)).2
      obtain ⟨o3, e3, v3⟩ := roundOf_lands opt r hr hs3 ((lands_down hf hi).2 (by exact_mod_cast hd3))
      have hone := (fadd_one hn hx hib).2
      have hsel : ∀ b : Bool, ieee (if b then fsub x (fofInt (8 * r.size) 1) else x) =
          .fin (((if b then i - 1 else i : ℤ)) : ℚ) := by
        intro b; cases b
        · simpa using hx
        · simpa using hone
      simp only [e1, e2, e3, Res.ok_bind, assertEq_fin hn hx v1, assertEq_fin hn (hsel _) v2,
        assertEq_fin hn (hsel _) v3]
      by_cases hz : fuel = 0
      · exfalso; subst hz; push_cast at hfuel; omega
      · exact ih (i - 1) _ (by omega) hone (by push_cast at hfuel; omega) (by omega)
    · rfl

/-- The tests as they are: the loops from `0.0` to `32.0` and to `-32.0`. -/
theorem C126_round_tests (opt : Bool) (r : UnRow) (hr : r ∈ roundRows ++ roundRowsUnknown) :
    roundTestUp opt r (fofInt _ 32) 33 (fofInt _ 0) = ok () ∧
    roundTestDown opt r (fofInt _ (-32)) 33 (fofInt _ 0) = ok () := by
  obtain ⟨hn, hf⟩ := roundRows_all r hr
  have h : (32 : ℤ) ≤ 2 ^ (mantBits (8 * r.size) - 3) := by
    rcases hn with h | h <;> rw [h] <;> decide
  have hz : ieee (fofInt (8 * r.size) 0) = .fin ((0 : ℤ) : ℚ) :=
    fofInt_val hn (by simp only [abs_zero]; positivity)
  exact ⟨C126_round_up opt r hr 32 (by norm_num) h 33 0 _ le_rfl hz (by norm_num) (by norm_num),
    C126_round_down opt r hr (-32) (by norm_num) (by simpa using h) 33 0 _ le_rfl hz (by norm_num)
      (by norm_num)⟩

/-! ### The last assertions of the tests: 9.8, 9.1 and 9.0 -/

/-- What the tests expect of `k + 0.8` and `k + 0.1` (src/intrin/round.rs:95-97, 119-121, 143-145,
167-169): `true` for `k + 1`. -/
def expectPoint : UnFn → Bool × Bool
  | .round => (true, false)
  | .ceil => (true, true)
  | _ => (false, false)

theorem lands_point {f : UnFn} (hf : f = .round ∨ f = .ceil ∨ f = .floor ∨ f = .trunc) {i : ℤ}
    (hi : 0 ≤ i) {s : ℚ} :
    (|s - (i + 8 / 10)| < 1 / 12 → Lands f s (if (expectPoint f).1 then i + 1 else i)) ∧
    (|s - (i + 1 / 10)| < 1 / 12 → Lands f s (if (expectPoint f).2 then i + 1 else i)) := by
  have hi' : (0 : ℚ) ≤ i := by exact_mod_cast hi
  constructor <;> intro h <;> rw [abs_lt] at h <;> rcases hf with rfl | rfl | rfl | rfl <;>
    simp only [Lands, directed, expectPoint, if_true, if_false, Bool.false_eq_true]
  · rw [abs_lt]; push_cast; constructor <;> linarith
  · rw [eq_comm, Int.ceil_eq_iff]; push_cast; constructor <;> linarith
  · rw [eq_comm, Int.floor_eq_iff]; constructor <;> linarith
  · rw [if_pos (by linarith), eq_comm, Int.floor_eq_iff]; constructor <;> linarith
  · rw [abs_lt]; constructor <;> linarith
  · rw [eq_comm, Int.ceil_eq_iff]; push_cast; constructor <;> linarith
  · rw [eq_comm, Int.floor_eq_iff]; constructor <;> linarith
  · rw [if_pos (by linarith), eq_comm, Int.floor_eq_iff]; constructor <;> linarith

theorem flit_point (hn : n = 32 ∨ n = 64) {k d : Nat} (hk : k < 2 ^ 20) (hd : d < 10)
    (h0 : 0 < k + d) :
    ∃ s : ℚ, ieee (flit n (10 * k + d) 10) = .fin s ∧ |s - (((k : ℤ) : ℚ) + d / 10)| < 1 / 12 := by
  have h1 : (k : ℝ) ≤ 1048575 := by
    have : k ≤ 1048575 := by norm_num at hk; omega
    exact_mod_cast this
  have h2 : (d : ℝ) ≤ 9 := by exact_mod_cast Nat.le_of_lt_succ hd
  have h3 : (1 : ℝ) ≤ k + d := by exact_mod_cast h0
  have hk0 : (0 : ℝ) ≤ k := by positivity
  have hd0 : (0 : ℝ) ≤ d := by positivity
  obtain ⟨b, hb, he⟩ := flit_val hn (10 * k + d) (q := 10) (by norm_num)
    (by push_cast; norm_num; linarith) (by push_cast; norm_num; linarith)
  refine ⟨b, hb, ?_⟩
  push_cast at he
  have e : ((10 : ℝ) * k + d) / 10 = k + d / 10 := by ring
  rw [e] at he
  have h : |((b : ℝ) - (k + d / 10))| < 1 / 12 := by
    rw [abs_sub_comm]
    refine lt_of_le_of_lt he ?_
    norm_num
    linarith
  have h' : ((|b - (((k : ℤ) : ℚ) + d / 10)| : ℚ) : ℝ) < ((1 / 12 : ℚ) : ℝ) := by
    push_cast; exact h
  exact_mod_cast h'

/-- **C126**, the assertions with `9.8`, `9.1` and `9.0`, for every integral part `k` below 2^20. -/
theorem C126_round_points (opt : Bool) (r : UnRow) (hr : r ∈ roundRows ++ roundRowsUnknown) (k : Nat)
    (h0 : 0 < k) (hk : k < 2 ^ 20) :
    (∃ o, roundOf opt r (Packed.splat (flit _ (10 * k + 8) 10)) = ok o ∧
      assertEq (Packed.splat (fofInt _ (if (expectPoint r.fn).1 then k + 1 else k : Nat))) o = ok ()) ∧
    (∃ o, roundOf opt r (Packed.splat (flit _ (10 * k + 1) 10)) = ok o ∧
      assertEq (Packed.splat (fofInt _ (if (expectPoint r.fn).2 then k + 1 else k : Nat))) o = ok ()) ∧
    ∃ o, roundOf opt r (Packed.splat (fofInt _ k)) = ok o ∧
      assertEq (Packed.splat (fofInt _ k)) o = ok () := by
  obtain ⟨hn, hf⟩ := roundRows_all r hr
  have hpow : (2 : ℤ) ^ 20 ≤ 2 ^ (mantBits (8 * r.size) - 3) := by
    rcases hn with h | h <;> rw [h] <;> norm_num [mantBits]
  have hv : ∀ j : ℕ, j ≤ k + 1 → ieee (fofInt (8 * r.size) j) = .fin ((j : ℤ) : ℚ) := by
    intro j hj
    refine fofInt_val hn ?_
    rw [abs_of_nonneg (by positivity)]
    have : (j : ℤ) ≤ 2 ^ 20 := by norm_num at hk ⊢; omega
    omega
  have hki : (0 : ℤ) ≤ k := by positivity
  refine ⟨?_, ?_, ?_⟩
  · obtain ⟨s, hs, hd⟩ := flit_point hn (d := 8) hk (by norm_num) (by omega)
    obtain ⟨o, h1, h2⟩ := roundOf_lands opt r hr hs
      ((lands_point hf hki).1 (by push_cast at hd ⊢; exact hd))
    refine ⟨o, h1, assertEq_fin hn (k := ((if (expectPoint r.fn).1 then k + 1 else k : ℤ) : ℚ)) ?_ h2⟩
    rw [hv _ (by split <;> omega)]
    split <;> simp
  · obtain ⟨s, hs, hd⟩ := flit_point hn (d := 1) hk (by norm_num) (by omega)
    obtain ⟨o, h1, h2⟩ := roundOf_lands opt r hr hs
      ((lands_point hf hki).2 (by push_cast at hd ⊢; exact hd))
    refine ⟨o, h1, assertEq_fin hn (k := ((if (expectPoint r.fn).2 then k + 1 else k : ℤ) : ℚ)) ?_ h2⟩
    rw [hv _ (by split <;> omega)]
    split <;> simp
  · obtain ⟨o, h1, h2⟩ := roundOf_lands opt r hr (hv k (by omega)) (lands_self hf k)
    exact ⟨o, h1, assertEq_fin hn (hv k (by omega)) h2⟩

/-- The loops really run: one more step than there is fuel for. -/
example : roundTestUp false ⟨"f32x4", 17, .f, 4, 4, .round, .sse41, .mm_round_ps, 0, [0, 1, 2, 3]⟩
    (fofInt _ 3) 3 (fofInt _ 0) = hang := by decide +kernel

/-- A limit is needed: from 2^21 on `i + 0.4` is the tie `i + 0.5`. -/
example : roundTestUp false ⟨"f32x4", 17, .f, 4, 4, .round, .sse41, .mm_round_ps, 0, [0, 1, 2, 3]⟩
    (fofInt _ 2097153) 3 (fofInt _ 2097152) = panic := by decide +kernel

/-! ### Reciprocals -/

/-- What the processor manuals say about RCPPS: relative error at most 1.5 * 2^-12 for normal
numbers of magnitude up to 2^125, and the reciprocal of zero is infinite. -/
def IsRcp (f : BitVec 32 → BitVec 32) : Prop :=
  (∀ (x : BitVec 32) (a : ℚ), ieee x = .fin a → fNormal 32 ≤ |(a : ℝ)| → |(a : ℝ)| ≤ 2 ^ 125 →
    ∃ b : ℚ, ieee (f x) = .fin b ∧ |(b : ℝ) * a - 1| ≤ 1.5 / 2 ^ 12) ∧
  (∀ x : BitVec 32, ieee x = .fin 0 → ieee (f x) = .inf x.msb)

theorem frecip_rel {x : BitVec 32} {a : ℚ} (hx : ieee x = .fin a)
    (h1 : fNormal 32 ≤ |(a : ℝ)|) (h2 : |(a : ℝ)| ≤ 2 ^ 125) :
    ∃ b : ℚ, ieee (frecip x) = .fin b ∧ |1 / (a : ℝ) - b| ≤ |1 / (a : ℝ)| / 2 ^ 24 := by
  have hN : fNormal 32 = 1 / 2 ^ 126 := by simp [fNormal]
  have ha : (0 : ℝ) < |(a : ℝ)| := by rw [hN] at h1; exact lt_of_lt_of_le (by positivity) h1
  have h0 : a ≠ 0 := by rintro rfl; simp at ha
  refine isRoundOf_rel (.inl rfl) (frecip_spec (.inl rfl) hx h0) ?_ ?_
  · rw [hN, abs_div, abs_one, div_le_div_iff₀ (by positivity) ha, one_mul, one_mul]
    refine le_trans h2 ?_
    norm_num
  · rw [abs_div, abs_one]
    refine lt_of_le_of_lt (b := (2 : ℝ) ^ 126) ?_ (lt_of_lt_of_le (by norm_num) (fLimit_large (.inl rfl)))
    rw [hN] at h1
    rw [div_le_iff₀ ha]
    have := mul_le_mul_of_nonneg_left h1 (show (0 : ℝ) ≤ 2 ^ 126 by positivity)
    rwa [mul_one_div_cancel (by positivity)] at this

/-- The fallback is more precise than that. -/
theorem recip_fallback : IsRcp frecip := by
  refine ⟨fun x a hx h1 h2 => ?_, fun x hx => ?_⟩
  · obtain ⟨b, hb, he⟩ := frecip_rel hx h1 h2
    refine ⟨b, hb, ?_⟩
    have hN : fNormal 32 = 1 / 2 ^ 126 := by simp [fNormal]
    have ha : (0 : ℝ) < |(a : ℝ)| := by rw [hN] at h1; exact lt_of_lt_of_le (by positivity) h1
    have h0 : (a : ℝ) ≠ 0 := abs_pos.1 ha
    have e : (b : ℝ) * a - 1 = -((1 / a - b) * a) := by field_simp; ring
    rw [e, abs_neg, abs_mul]
    refine le_trans (mul_le_mul_of_nonneg_right he ha.le) ?_
    rw [abs_div, abs_one]
    have : 1 / |(a : ℝ)| / 2 ^ 24 * |(a : ℝ)| = 1 / 2 ^ 24 := by field_simp
    rw [this]
    norm_num
  · have h1 : ieee (fofInt 32 1) = .fin ((1 : ℤ) : ℚ) := fofInt_exact (.inl rfl) (by decide)
    have := fdiv_zero (.inl rfl) h1 (by norm_num) hx
    rw [frecip, this, show (fofInt 32 1).msb = false by decide +kernel]
    simp

/-- The sum with one is not the negative zero. -/
theorem fadd_one_pos {x : BitVec 32} {i : ℤ} (hx : ieee x = .fin i) : i + 1 = 0 → (fadd x (fofInt 32 1)).msb = false := by
  intro h
  have h1 : ieee (fofInt 32 1) = .fin ((1 : ℤ) : ℚ) := fofInt_exact (.inl rfl) (by decide)
  obtain ⟨hx1, hx2⟩ := fnan_of_fin (.inl rfl) hx
  obtain ⟨hy1, hy2⟩ := fnan_of_fin (.inl rfl) h1
  have hs : fint x + fint (fofInt 32 1) = 0 := by
    have e1 := fin_fint (.inl rfl) hx
    have e2 := fin_fint (.inl rfl) h1
    have hu : (0 : ℝ) < 2 ^ fone 32 := by positivity
    have : ((fint x + fint (fofInt 32 1) : ℤ) : ℝ) = 0 := by
      push_cast
      have h' : (((i : ℚ) : ℝ)) + (((1 : ℤ) : ℚ) : ℝ) = 0 := by exact_mod_cast congrArg (Int.cast (R := ℝ)) h
      rw [e1, e2, ← add_div, div_eq_zero_iff] at h'
      rcases h' with h' | h'
      · exact h'
      · exact absurd h' hu.ne'
    exact_mod_cast this
  unfold fadd
  rw [hx1, hx2, hy1, hy2, if_pos hs]
  simp only [Bool.or_self, Bool.false_eq_true, if_false]
  rw [show (fofInt 32 1).msb = false by decide +kernel, Bool.and_false]
  decide +kernel

theorem fabs_fin {x : BitVec 32} {a : ℚ} (hx : ieee x = .fin a) : ieee (fabsScalar x) = .fin |a| :=
  (fabs_facts (.inl rfl) hx).2

/-- **C126**, `recip`: the loop of the test passes from any integer and to any limit of at most 20
binary digits, with every version of `recip`. -/
theorem C126_recip {w : Nat} (hw : 0 < w) {recip : Vector (BitVec 32) w → Res (Vector (BitVec 32) w)}
    {f : BitVec 32 → BitVec 32} (hrec : ∀ v, recip v = ok (v.map f)) (hf : IsRcp f) (L : ℤ)
    (hL : |L| ≤ 2 ^ 20) (fuel : Nat) :
    ∀ (i : ℤ) (x : BitVec 32), -(2 ^ 20) < i → ieee x = .fin i → (i = 0 → x.msb = false) →
      L - i < fuel → 0 < fuel → recipTest recip (fofInt _ L) fuel x = ok () := by
  have hlim : ieee (fofInt 32 L) = .fin (L : ℚ) := fofInt_val (.inl rfl) (le_trans hL (by norm_num [mantBits]))
  have hN : fNormal 32 = 1 / 2 ^ 126 := by simp [fNormal]
  obtain ⟨e5, h5, hd5⟩ := flit_val (n := 32) (.inl rfl) 5 (q := 10000) (by norm_num)
    (by norm_num) (by norm_num)
  induction fuel with
  | zero => intro i x _ _ _ _ h; omega
  | succ fuel ih =>
    intro i x hi hx hz hfuel _
    unfold recipTest
    split
    · rename_i hlt
      rw [flt_fin (.inl rfl) hx hlim] at hlt
      have hlt : i < L := by exact_mod_cast hlt
      have hib : |i| < 2 ^ 20 := by
        rw [abs_lt]; have := le_abs_self L; constructor <;> omega
      have hone := (fadd_one (.inl rfl) hx (by simpa [mantBits] using hib)).1
      rw [hrec]
      simp only [Res.ok_bind, Packed.extract, dif_pos hw, Vector.getElem_map, splat_get]
      have hass : assert ((feq (fdiv (fofInt 32 1) x) (fInf 32 false) && feq (f x) (fInf 32 false)) ||
          flt (fabsScalar (fsub (f x) (fdiv (fofInt 32 1) x))) (flit 32 5 10000)) = ok () := by
        apply assert_ok
        rw [Bool.or_eq_true]
        by_cases h0 : i = 0
        · left
          have hx0 : ieee x = .fin 0 := by rw [hx, h0]; simp
          have hms := hz h0
          have e1 := recip_fallback.2 x hx0
          have e2 := hf.2 x hx0
          rw [hms] at e1 e2
          have e3 := (finf_facts (n := 32) (.inl rfl) false).2.2
          rw [Bool.and_eq_true, feq_iff (.inl rfl), feq_iff (.inl rfl)]
          unfold frecip at e1
          rw [e1, e2, e3]
          simp
        · right
          have ha1 : (1 : ℝ) ≤ |((i : ℚ) : ℝ)| := by
            have : (1 : ℤ) ≤ |i| := Int.one_le_abs h0
            exact_mod_cast this
          have ha2 : |((i : ℚ) : ℝ)| ≤ 2 ^ 125 := by
            have : |((i : ℚ) : ℝ)| < 2 ^ 20 := by
              have : ((|i| : ℤ) : ℝ) < ((2 ^ 20 : ℤ) : ℝ) := by exact_mod_cast hib
              push_cast at this ⊢; norm_num at this ⊢; exact this
            refine le_trans this.le ?_
            norm_num
          have ha3 : fNormal 32 ≤ |((i : ℚ) : ℝ)| := by
            rw [hN]; refine le_trans ?_ ha1; norm_num
          obtain ⟨b, hb, hbe⟩ := hf.1 x i hx ha3 ha2
          obtain ⟨r, hr, hre⟩ := frecip_rel hx ha3 ha2
          unfold frecip at hr
          generalize ((i : ℚ) : ℝ) = a at *
          have hap : 0 < |a| := by linarith
          have ha0 : a ≠ 0 := abs_pos.1 hap
          -- both are close to the exact reciprocal
          have hb1 : |(b : ℝ) - 1 / a| ≤ 1.5 / 2 ^ 12 := by
            have e : (b : ℝ) - 1 / a = (b * a - 1) / a := by field_simp
            rw [e, abs_div, div_le_iff₀ hap]
            refine le_trans hbe ?_
            exact le_mul_of_one_le_right (by norm_num) ha1
          have hr0 : |1 / a| ≤ 1 := by
            rw [abs_div, abs_one, div_le_iff₀ hap, one_mul]; exact ha1
          have hr1 : |1 / a - (r : ℝ)| ≤ 1 / 2 ^ 24 := by
            refine le_trans hre ?_
            exact div_le_div_of_nonneg_right hr0 (by positivity)
          have hdiff : |(b : ℝ) - r| ≤ 0.0004 := by
            calc |(b : ℝ) - r| = |(b - 1 / a) + (1 / a - r)| := by congr 1; ring
              _ ≤ |(b : ℝ) - 1 / a| + |1 / a - (r : ℝ)| := abs_add_le _ _
              _ ≤ 0.0004 := by norm_num at hb1 hr1 ⊢; linarith
          -- the difference as a float
          have hneg := fneg_spec (.inl rfl) hr
          have hsm : |((b : ℝ) + ((-r : ℚ) : ℝ))| ≤ 0.0004 := by
            rw [Rat.cast_neg, ← sub_eq_add_neg]; exact hdiff
          obtain ⟨s, hs, -⟩ := fadd_near (.inl rfl) hb hneg
            (le_trans hsm (by norm_num [mantBits]))
          have hse := fadd_error (.inl rfl) hb hneg hs
          rw [flt_fin (.inl rfl) (fabs_fin (x := fsub (f x) (fdiv (fofInt 32 1) x)) hs) h5]
          have hfin : |(s : ℝ)| < e5 := by
            have e1 : |(s : ℝ)| ≤ 0.00041 := by
              calc |(s : ℝ)| = |((s : ℝ) - (b + ((-r : ℚ) : ℝ))) + (b + ((-r : ℚ) : ℝ))| := by
                    congr 1; ring
                _ ≤ |(s : ℝ) - (b + ((-r : ℚ) : ℝ))| + |(b : ℝ) + ((-r : ℚ) : ℝ)| := abs_add_le _ _
                _ ≤ fEps 32 * 0.0004 + 0.0004 :=
                    add_le_add (le_trans hse (mul_le_mul_of_nonneg_left hsm fEps_pos.le)) hsm
                _ ≤ 0.00041 := by simp only [fEps]; norm_num
            have e2 := (abs_le.mp hd5).2
            norm_num at e1 e2 ⊢
            linarith
          have : ((|s| : ℚ) : ℝ) < (e5 : ℝ) := by push_cast; exact hfin
          exact_mod_cast this
      rw [hass]
      simp only [Res.ok_bind]
      by_cases hz' : fuel = 0
      · exfalso; subst hz'; push_cast at hfuel; omega
      · exact ih (i + 1) _ (by omega) hone (fadd_one_pos hx) (by push_cast at hfuel; omega) (by omega)
    · rfl

/-- **C126**: the test as it is, from -1024 to 1024, on every fallback and with every intrinsic
that is as precise as the manuals say. -/
theorem C126_recip_tests :
    (∀ {w : Nat} (recip : Vector (BitVec 32) w → Res (Vector (BitVec 32) w)) (f : BitVec 32 → BitVec 32),
      0 < w → (∀ v, recip v = ok (v.map f)) → IsRcp f →
      recipTest recip (fofInt _ 1024) 2049 (fofInt _ (-1024)) = ok ()) ∧
    (∀ r ∈ recipRows ++ recipRowsUnknown,
      recipTest (rootFallback fsqrt frecip r) (fofInt _ 1024) 2049 (fofInt _ (-1024)) = ok ()) := by
  have key : ∀ {w : Nat} (recip : Vector (BitVec 32) w → Res (Vector (BitVec 32) w))
      (f : BitVec 32 → BitVec 32), 0 < w → (∀ v, recip v = ok (v.map f)) → IsRcp f →
      recipTest recip (fofInt _ 1024) 2049 (fofInt _ (-1024)) = ok () := by
    intro w recip f hw hr hf
    exact C126_recip hw hr hf 1024 (by norm_num) 2049 (-1024) _ (by norm_num)
      (fofInt_val (.inl rfl) (by norm_num [mantBits])) (by norm_num) (by norm_num) (by norm_num)
  refine ⟨key, fun r hr => key _ frecip ?_ (recipFallback_map r hr) recip_fallback⟩
  exact (by decide +kernel : ∀ r ∈ recipRows ++ recipRowsUnknown, 0 < r.width) r hr

theorem near_core {c : Cfg} (hw : 0 < w) {m : Vector (BitVec 32) w → Res (Vector (BitVec 32) w)}
    {f : BitVec 32 → BitVec 32} (hm : ∀ v, m v = ok (v.map f)) {x y : BitVec 32} {b t : ℚ} {T : ℝ}
    (hb : ieee (f x) = .fin b) (ht : ieee y = .fin t) (hT : |T| ≤ 10) (h1 : |(b : ℝ) - T| ≤ 0.004)
    (h2 : |(t : ℝ) - T| ≤ 0.005) : nearTest c m x y = ok () := by
  obtain ⟨e, he, hde⟩ := flit_val (n := 32) (.inl rfl) 1 (q := 100) (by norm_num)
    (by norm_num) (by norm_num)
  have he1 := abs_le.mp hde
  have hT1 := abs_le.mp hT
  have hb1 := abs_le.mp h1
  have ht1 := abs_le.mp h2
  have hmap : (Packed.splat x : Vector (BitVec 32) w).map f = Packed.splat (f x) := by
    simp [Packed.splat]
  have hco : Packed.coalesce feq c (Packed.splat (f x) : Vector (BitVec 32) w) = ok (f x) :=
    C53_coalesce_float_partial c _ (fnan_of_fin (.inl rfl) hb).1 hw
  -- the two bounds as floats
  have hup : |((t : ℝ) + (e : ℝ))| ≤ 11 := by
    rw [abs_le]; norm_num at *; constructor <;> linarith
  have hdn : |((t : ℝ) + ((-e : ℚ) : ℝ))| ≤ 11 := by
    rw [Rat.cast_neg, abs_le]; norm_num at *; constructor <;> linarith
  have hneg := fneg_spec (.inl rfl) he
  obtain ⟨u, hu, -⟩ := fadd_near (.inl rfl) ht he (le_trans hup (by norm_num [mantBits]))
  obtain ⟨d, hd, -⟩ := fadd_near (.inl rfl) ht hneg (le_trans hdn (by norm_num [mantBits]))
  have hue := abs_le.mp (le_trans (fadd_error (.inl rfl) ht he hu) (mul_le_mul_of_nonneg_left hup fEps_pos.le))
  have hde' := abs_le.mp (le_trans (fadd_error (.inl rfl) ht hneg hd) (mul_le_mul_of_nonneg_left hdn fEps_pos.le))
  rw [Rat.cast_neg] at hde'
  have heps : fEps 32 * 11 ≤ 0.00001 := by simp only [fEps]; norm_num
  unfold nearTest
  rw [hm]
  simp only [Res.ok_bind]
  rw [hmap, hco]
  simp only [Res.ok_bind]
  apply assert_ok
  rw [Bool.and_eq_true]
  constructor
  · rw [flt_fin (.inl rfl) (x := fsub y (flit 32 1 100)) hd hb]
    have : (d : ℝ) < b := by norm_num at heps he1 hb1 ht1; linarith [hde'.2]
    exact_mod_cast this
  · rw [flt_fin (.inl rfl) hb hu]
    have : (b : ℝ) < u := by norm_num at heps he1 hb1 ht1; linarith [hue.1]
    exact_mod_cast this

/-- **C126**, documentation of `recip`: the assertion passes for every number of magnitude at least
one tenth and every literal within 0.005 of its reciprocal, in debug and in release builds. -/
theorem C126_recip_doc {c : Cfg} (hw : 0 < w) {m : Vector (BitVec 32) w → Res (Vector (BitVec 32) w)}
    {f : BitVec 32 → BitVec 32} (hm : ∀ v, m v = ok (v.map f)) (hf : IsRcp f) {x y : BitVec 32}
    {a t : ℚ} (hx : ieee x = .fin a) (ha : 1 / 10 ≤ |(a : ℝ)|) (ha' : |(a : ℝ)| ≤ 2 ^ 125)
    (hy : ieee y = .fin t) (ht : |(t : ℝ) - 1 / a| ≤ 0.005) : nearTest c m x y = ok () := by
  have hN : fNormal 32 = 1 / 2 ^ 126 := by simp [fNormal]
  obtain ⟨b, hb, he⟩ := hf.1 x a hx (by rw [hN]; exact le_trans (by norm_num) ha) ha'
  have hap : 0 < |(a : ℝ)| := by linarith
  have ha0 : (a : ℝ) ≠ 0 := abs_pos.1 hap
  refine near_core hw hm hb hy (T := 1 / a) ?_ ?_ ht
  · rw [abs_div, abs_one, div_le_iff₀ hap]; linarith
  · have e : (b : ℝ) - 1 / a = (b * a - 1) / a := by field_simp
    rw [e, abs_div, div_le_iff₀ hap]
    norm_num at he ha ⊢
    linarith

/-- **C126**, documentation of `rsqrt`: the same for the reciprocal of the root of every number
that is at least one hundredth. -/
theorem C126_rsqrt_doc {c : Cfg} (hw : 0 < w) {m : Vector (BitVec 32) w → Res (Vector (BitVec 32) w)}
    {f : BitVec 32 → BitVec 32} (hm : ∀ v, m v = ok (v.map f)) (hf : IsRsqrt f) {x y : BitVec 32}
    {a t : ℚ} (hx : ieee x = .fin a) (ha : 1 / 100 ≤ (a : ℝ)) (hy : ieee y = .fin t)
    (ht : |(t : ℝ) - 1 / Real.sqrt a| ≤ 0.005) : nearTest c m x y = ok () := by
  have hN : fNormal 32 = 1 / 2 ^ 126 := by simp [fNormal]
  obtain ⟨b, hb, he⟩ := hf.1 x a hx (by rw [hN]; exact le_trans (by norm_num) ha)
  have hs : 1 / 10 ≤ Real.sqrt a := Real.le_sqrt_of_sq_le (le_trans (by norm_num) ha)
  generalize Real.sqrt a = S at *
  have hsp : 0 < S := by linarith
  refine near_core hw hm hb hy (T := 1 / S) ?_ ?_ ht
  · rw [abs_div, abs_one, abs_of_pos hsp, div_le_iff₀ hsp]; linarith
  · have e : (b : ℝ) - 1 / S = (b * S - 1) / S := by field_simp
    rw [e, abs_div, abs_of_pos hsp, div_le_iff₀ hsp]
    norm_num at he hs ⊢
    linarith

/-- **C126**: the two documentation examples as they are, with every fallback and every intrinsic
that is as precise as the manuals say. -/
theorem C126_docs (c : Cfg) :
    (∀ {w : Nat} (m : Vector (BitVec 32) w → Res (Vector (BitVec 32) w)) (f : BitVec 32 → BitVec 32),
      0 < w → (∀ v, m v = ok (v.map f)) →
      (IsRcp f → nearTest c m (fofInt 32 4) (flit 32 25 100) = ok ()) ∧
      (IsRsqrt f → nearTest c m (fofInt 32 9) (flit 32 33333333 100000000) = ok ())) ∧
    (∀ r ∈ recipRows ++ recipRowsUnknown,
      nearTest c (rootFallback fsqrt frecip r) (fofInt 32 4) (flit 32 25 100) = ok ()) ∧
    (∀ r ∈ rsqrtRows ++ rsqrtRowsUnknown,
      nearTest c (rootFallback fsqrt frecip r) (fofInt 32 9) (flit 32 33333333 100000000) = ok ()) := by
  have key : ∀ {w : Nat} (m : Vector (BitVec 32) w → Res (Vector (BitVec 32) w))
      (f : BitVec 32 → BitVec 32), 0 < w → (∀ v, m v = ok (v.map f)) →
      (IsRcp f → nearTest c m (fofInt 32 4) (flit 32 25 100) = ok ()) ∧
      (IsRsqrt f → nearTest c m (fofInt 32 9) (flit 32 33333333 100000000) = ok ()) := by
    intro w m f hw hm
    constructor
    · intro hf
      obtain ⟨e, he, hd⟩ := flit_val (n := 32) (.inl rfl) 25 (q := 100) (by norm_num)
        (by norm_num) (by norm_num)
      refine C126_recip_doc hw hm hf (fofInt_val (.inl rfl) (L := 4) (by norm_num [mantBits]))
        (by norm_num) (by norm_num) he ?_
      rw [abs_sub_comm]
      norm_num at hd ⊢
      exact le_trans hd (by norm_num)
    · intro hf
      obtain ⟨e, he, hd⟩ := flit_val (n := 32) (.inl rfl) 33333333 (q := 100000000) (by norm_num)
        (by norm_num) (by norm_num)
      refine C126_rsqrt_doc hw hm hf (fofInt_val (.inl rfl) (L := 9) (by norm_num [mantBits]))
        (by norm_num) he ?_
      have h9 : Real.sqrt (((9 : ℤ) : ℚ) : ℝ) = 3 := by
        rw [show ((((9 : ℤ) : ℚ) : ℝ)) = 3 ^ 2 by norm_num]
        exact Real.sqrt_sq (by norm_num)
      rw [h9, abs_le]
      have := abs_le.mp hd
      norm_num at this ⊢
      constructor <;> linarith
  refine ⟨key, fun r hr => (key _ frecip ?_ (recipFallback_map r hr)).1 recip_fallback,
    fun r hr => (key _ _ ?_ (rsqrtFallback_map r hr)).2 rsqrt_fallback⟩
  · exact (by decide +kernel : ∀ r ∈ recipRows ++ recipRowsUnknown, 0 < r.width) r hr
  · exact (by decide +kernel : ∀ r ∈ rsqrtRows ++ rsqrtRowsUnknown, 0 < r.width) r hr

/-- The tests run and can fail: an estimate that is 1/32 too large does not pass. -/
example :
    recipTest (w := 4) (fun v => ok (v.map frecip)) (fofInt _ 3) 6 (fofInt _ (-2)) = ok () ∧
    recipTest (w := 4) (fun v => ok (v.map fun x => fadd (frecip x) (flit 32 1 32))) (fofInt _ 3) 6
      (fofInt _ (-2)) = panic ∧
    nearTest (w := 4) debug64 (fun v => ok (v.map fun x => fadd (frecip x) (flit 32 1 32)))
      (fofInt 32 4) (flit 32 25 100) = panic := by decide +kernel

end Faster
