import Verif.SoftCast
import Verif.Props.Soft
import Verif.Props.FloatCast
import Verif.Props.Sum
import Mathlib.Data.Rat.Floor
/-
Casts between integers and floats on targets without SIMD (C120), and `sum_upcast` of
float vectors and of vectors of 64-bit integers (C121).
-/
namespace Faster
open Res

variable {n k w : Nat}

/-! ### Floats to integers -/

/-- A number rounded towards zero. -/
def truncate (v : ℚ) : ℤ := if 0 ≤ v then ⌊v⌋ else ⌈v⌉

/-- The integer, of `k` bits, which a float becomes: the number of its value rounded
towards zero which is nearest to it in the type; limits for infinities; zero for NaN. -/
def FVal.toInt (signed : Bool) (k : Nat) : FVal → ℤ
  | .nan => 0
  | .inf neg => if neg then (if signed then -2 ^ (k - 1) else 0)
      else (if signed then 2 ^ (k - 1) - 1 else 2 ^ k - 1)
  | .fin v => nearest signed k (truncate v)

theorem truncate_div (a : ℤ) {u : ℤ} (hu : 0 < u) : truncate ((a : ℚ) / u) = a.tdiv u := by
  have hq : (0 : ℚ) < u := by exact_mod_cast hu
  have hfl : ∀ b : ℤ, ⌊(b : ℚ) / u⌋ = b / u := by
    intro b
    rw [Int.floor_eq_iff, le_div_iff₀ hq, div_lt_iff₀ hq]
    have h1 : b / u * u ≤ b := Int.ediv_mul_le b (by omega)
    have h2 : b < (b / u + 1) * u := by
      have := Int.lt_ediv_add_one_mul_self b hu
      exact this
    constructor
    · exact_mod_cast h1
    · exact_mod_cast h2
  unfold truncate
  split
  · rename_i h
    have ha : 0 ≤ a := by
      rcases lt_or_ge a 0 with h' | h'
      · have : (a : ℚ) / u < 0 := div_neg_of_neg_of_pos (by exact_mod_cast h') hq
        linarith
      · exact h'
    rw [hfl, Int.tdiv_eq_ediv_of_nonneg ha]
  · rename_i h
    have ha : a < 0 := by
      by_contra h'
      exact h (div_nonneg (by exact_mod_cast (not_lt.mp h')) (le_of_lt hq))
    have e : (a : ℚ) / u = -(((-a : ℤ) : ℚ) / u) := by push_cast; ring
    rw [e, Int.ceil_neg, hfl, ← Int.tdiv_eq_ediv_of_nonneg (by omega), Int.neg_tdiv, neg_neg]

theorem nearest_eq_clamp (b : Kind) (x : Int) :
    nearest b.signed k x = max (b.lo k) (min (b.hi k) x) := by
  cases b <;> rfl

theorem lo_le_hi (b : Kind) : b.lo k ≤ b.hi k := by
  have h1 : (0 : Int) < 2 ^ (k - 1) := Int.pow_pos (by omega)
  have h2 : (0 : Int) < 2 ^ k := Int.pow_pos (by omega)
  cases b <;> simp only [Kind.lo, Kind.hi] <;> omega

/-- The scalar `as` from a float to an integer. -/
theorem ftoInt_spec (hn : n = 32 ∨ n = 64) (hk : 0 < k) (b : Kind) (x : BitVec n) :
    num b.signed (ftoInt b k x) = (ieee x).toInt b.signed k := by
  rw [num_eq]
  have hlh := lo_le_hi (k := k) b
  have hz : b.value 0#k = 0 := by cases b <;> simp [Kind.value]
  cases hx : ieee x with
  | nan =>
    unfold ftoInt
    rw [if_pos ((fnan_iff hn x).2 hx), hz]
    rfl
  | inf s =>
    obtain ⟨h1, h2⟩ := (inf_iff hn x s).1 hx
    have hnan : ¬ fnan x = true := by rw [fnan_iff hn, hx]; simp
    unfold ftoInt
    rw [if_neg hnan, if_pos h1, h2]
    unfold FVal.toInt
    cases s
    · simp only [Bool.false_eq_true, if_false]
      rw [Kind.value_ofInt b hk ⟨hlh, le_refl _⟩]
      cases b <;> simp [Kind.hi, Kind.signed]
    · simp only [if_true]
      rw [Kind.value_ofInt b hk ⟨le_refl _, hlh⟩]
      cases b <;> simp [Kind.lo, Kind.signed]
  | fin v =>
    obtain ⟨h1, h2⟩ := fin_ieee hn hx
    have hnan : ¬ fnan x = true := by rw [fnan_iff hn, hx]; simp
    have hinf : ¬ finf x = true := by unfold finf; rw [beq_iff_eq]; omega
    unfold ftoInt
    rw [if_neg hnan, if_neg hinf, Kind.value_ofInt b hk ⟨le_max_left _ _, max_le hlh (min_le_left _ _)⟩]
    have e : v = ((fint x : ℤ) : ℚ) / ((2 ^ fone n : ℤ) : ℚ) := by
      rw [h2, fint_eq, mul_div_assoc]
      push_cast
      rfl
    show _ = nearest b.signed k (truncate v)
    rw [e, truncate_div _ (by positivity), nearest_eq_clamp]

/-! ### C120: the casts of software vectors -/

/-- What a lane `x` of kind `a` becomes by a cast to kind `b` of the same size. -/
def IsAs (a b : Kind) (x y : BitVec n) : Prop :=
  match a, b with
  | .f, .f => y = x
  | .f, b => num b.signed y = (ieee x).toInt b.signed n
  | a, .f => IsRoundOf (num a.signed x) y
  | _, _ => y = x

/-- The row of a vector type and a cast of it: element types of the same size. -/
def castTypes (s : SoftRow) (r : SoftCastRow) : Bool :=
  match elType s.el, elType r.el with
  | some (a, n), some (b, m) => n == m && a != b && n != 0 && s.lanes == r.lanes &&
      (a != .f && b != .f || n == 32 || n == 64)
  | _, _ => false

theorem cast_facts : ∀ r ∈ softCasts, ∃ s ∈ softRows, s.vec = r.vec ∧
    ∃ a b n, elType s.el = some (a, n) ∧ elType r.el = some (b, n) ∧ a ≠ b ∧ 0 < n ∧ s.lanes = r.lanes ∧
      ((a = .f ∨ b = .f) → n = 32 ∨ n = 64) := by
  have h : ∀ r ∈ softCasts, ∃ s ∈ softRows, s.vec = r.vec ∧ castTypes s r = true := by decide +kernel
  intro r hr
  obtain ⟨s, hs, h1, h2⟩ := h r hr
  refine ⟨s, hs, h1, ?_⟩
  unfold castTypes at h2
  split at h2
  · rename_i a n b m h3 h4
    simp only [Bool.and_eq_true, Bool.or_eq_true, beq_iff_eq, bne_iff_ne] at h2
    obtain ⟨⟨⟨⟨rfl, h5⟩, h6⟩, h7⟩, h8⟩ := h2
    refine ⟨a, b, n, h3, h4, h5, by omega, h7, fun h9 => ?_⟩
    rcases h8 with (h8 | h8) | h8
    · rcases h9 with h9 | h9
      · exact absurd h9 h8.1
      · exact absurd h9 h8.2
    · exact .inl h8
    · exact .inr h8
  · exact absurd h2 (by decide)

theorem asScalar_spec {a b : Kind} (hab : a ≠ b) (h0 : 0 < n) (h : (a = .f ∨ b = .f) → n = 32 ∨ n = 64)
    (x : BitVec n) : IsAs a b x (asScalar a b x) := by
  cases a <;> cases b <;> simp only [IsAs, asScalar] <;> try exact absurd rfl hab
  · simp
  · have := fofInt_spec (h (.inr rfl)) (Kind.u.value x)
    rw [num_eq]
    exact this
  · simp
  · have := fofInt_spec (h (.inr rfl)) (Kind.i.value x)
    rw [num_eq]
    exact this
  · exact ftoInt_spec (h (.inl rfl)) h0 .u x
  · exact ftoInt_spec (h (.inl rfl)) h0 .i x

/-- **C120**: every cast between software vectors returns, lane by lane, the same bits
(between integers), the nearest float, or the value rounded towards zero and limited to
the range of the type. -/
theorem C120_casts (r : SoftCastRow) (hr : r ∈ softCasts) :
    ∃ s ∈ softRows, s.vec = r.vec ∧ s.lanes = r.lanes ∧ r.toLanes = r.lanes ∧
    ∃ a b n, elType s.el = some (a, n) ∧ elType r.el = some (b, n) ∧ a ≠ b ∧
      ∀ v : Vector (BitVec n) r.lanes, ∃ o : Vector (BitVec n) r.toLanes,
        Soft.cast (asScalar a b) 0#n v = ok o ∧
        ∀ i (h : i < r.lanes) (h' : i < r.toLanes), IsAs a b v[i] o[i] := by
  obtain ⟨s, hs, h1, a, b, n, h2, h3, h4, h5, h6, h7⟩ := cast_facts r hr
  have hl : r.toLanes = r.lanes := ((C61_rows r hr).1).symm
  refine ⟨s, hs, h1, h6, hl, a, b, n, h2, h3, h4, ?_⟩
  rw [hl]
  intro v
  obtain ⟨o, h8, h9⟩ := C61 (asScalar a b) 0#n v
  exact ⟨o, h8, fun i h _ => by rw [h9 i h]; exact asScalar_spec h4 h5 h7 v[i]⟩

/-- 2.75, -2.75, 3·10⁹ and NaN as `i32` and as `u32`. -/
example : Soft.cast (asScalar .f .i) 0#32 #v[0x40300000#32, 0xC0300000, 0x4F32D05E, 0x7FC00000] =
      ok #v[2#32, -2, 2147483647, 0] ∧
    Soft.cast (asScalar .f .u) 0#32 #v[0x40300000#32, 0xC0300000, 0x4F32D05E, 0x7FC00000] =
      ok #v[2#32, 0, 3000000000, 0] := by decide +kernel

theorem truncate_int (z : ℤ) : truncate (z : ℚ) = z := by
  unfold truncate
  split <;> simp

/-- **C120**: integers which the float type represents exactly survive the way to floats
and back. -/
theorem C120_round_trip {b : Kind} (hb : b ≠ .f) (hn : n = 32 ∨ n = 64) (x : BitVec n)
    (hx : (num b.signed x).natAbs ≤ 2 ^ (mantBits n + 1)) :
    asScalar .f b (asScalar b .f x : BitVec n) = x := by
  have h0 : 0 < n := by omega
  have e1 : (asScalar b .f x : BitVec n) = fofInt n (num b.signed x) := by
    rw [num_eq]
    cases b <;> first | rfl | exact absurd rfl hb
  have e2 : ∀ y : BitVec n, (asScalar .f b y : BitVec n) = ftoInt b n y := by
    intro y
    cases b <;> first | rfl | exact absurd rfl hb
  have h1 : ieee (fofInt n (num b.signed x)) = .fin (num b.signed x : ℤ) := fofInt_exact hn hx
  have h2 := ftoInt_spec hn h0 b (fofInt n (num b.signed x))
  rw [h1] at h2
  have h3 : FVal.toInt b.signed n (.fin (num b.signed x : ℤ)) = num b.signed x := by
    show nearest b.signed n (truncate _) = _
    rw [truncate_int, nearest_eq_clamp, num_eq]
    have := Kind.value_bounds b h0 x
    rw [min_eq_right this.2, max_eq_right this.1]
  rw [h3, num_eq, num_eq] at h2
  rw [e1, e2, num_eq, ← Kind.ofInt_value b (ftoInt b n _), h2, Kind.ofInt_value]

example : asScalar .f .i (asScalar .i .f (-16777216#32) : BitVec 32) = -16777216#32 ∧
    asScalar .f .i (asScalar .i .f (16777217#32) : BitVec 32) = 16777216#32 := by decide +kernel

/-! ### C121: sum_upcast -/

/-- The lane `x` as a 64-bit integer. -/
def laneInt (x : BitVec n) : ℤ := (ieee x).toInt true 64

theorem laneInt_eq (hn : n = 32 ∨ n = 64) (x : BitVec n) : Kind.i.value (ftoInt .i 64 x) = laneInt x := by
  rw [← num_eq]
  exact ftoInt_spec hn (by omega) .i x

theorem sum_laneInts (hn : n = 32 ∨ n = 64) (l : List (BitVec n)) :
    0#64 + (l.map (ftoInt .i 64)).sum = BitVec.ofInt 64 (l.map laneInt).sum := by
  have h : l.map laneInt = (l.map (ftoInt .i 64)).map Kind.i.value := by
    rw [List.map_map]
    exact List.map_congr_left fun x _ => (laneInt_eq hn x).symm
  rw [h, ← sum_ofInt (l.map (ftoInt .i 64)) Kind.i.value (Kind.ofInt_value .i)]
  simp

/-- **C121** for floats, in a release build: the sum, modulo `2^64`, of the lanes as
integers. -/
theorem C121_float_release (c : Cfg) (hc : c.debug = false) (hn : n = 32 ∨ n = 64)
    (v : Vector (BitVec n) w) :
    sumUpcastFloat c v = ok (BitVec.ofInt 64 (v.toList.map laneInt).sum) := by
  unfold sumUpcastFloat
  rw [C53_scalar_reduce]
  have := foldlM_check_release c hc .i (ftoInt (n := n) .i 64) v.toList 0#64
  rw [← sum_laneInts hn]
  exact this

/-- **C121** for floats, in every build, if no sum of the first lanes overflows. -/
theorem C121_float_fits (c : Cfg) (hn : n = 32 ∨ n = 64) (v : Vector (BitVec n) w)
    (h : ∀ j, j ≤ w → Fits true 64 ((v.toList.take j).map laneInt).sum) :
    ∃ r, sumUpcastFloat c v = ok r ∧ r.toInt = (v.toList.map laneInt).sum := by
  have hv : ∀ l : List (BitVec n), (l.map fun x => Kind.i.value (ftoInt .i 64 x)) = l.map laneInt :=
    fun l => List.map_congr_left fun x _ => laneInt_eq hn x
  refine ⟨BitVec.ofInt 64 (v.toList.map laneInt).sum, ?_, ?_⟩
  · unfold sumUpcastFloat
    rw [C53_scalar_reduce, ← sum_laneInts hn]
    refine foldlM_check_fits c .i (by omega) (ftoInt (n := n) .i 64) v.toList 0#64 ?_
    intro j _ hj
    rw [hv]
    have := (fits_iff .i (by omega : 0 < 64) _).mp (h j (by simpa using hj))
    simpa [Kind.value] using this
  · have := (fits_iff .i (by omega : 0 < 64) _).mp (h w (Nat.le_refl _))
    rw [List.take_of_length_le (by simp)] at this
    exact Kind.value_ofInt .i (by omega) this

/-- **C121** for floats, in a debug build: a panic if some sum of the first lanes
overflows. -/
theorem C121_float_debug (c : Cfg) (hc : c.debug = true) (hn : n = 32 ∨ n = 64)
    (v : Vector (BitVec n) w) {j : Nat} (hj : j ≤ w)
    (h : ¬ Fits true 64 ((v.toList.take j).map laneInt).sum) :
    sumUpcastFloat c v = panic := by
  have hv : ∀ l : List (BitVec n), (l.map fun x => Kind.i.value (ftoInt .i 64 x)) = l.map laneInt :=
    fun l => List.map_congr_left fun x _ => laneInt_eq hn x
  unfold sumUpcastFloat
  rw [C53_scalar_reduce]
  refine foldlM_check_panic c hc .i (by omega) (ftoInt (n := n) .i 64) v.toList 0#64 j ?_ (by simpa using hj) ?_
  · rcases Nat.eq_zero_or_pos j with rfl | h'
    · exact absurd (by simp [Fits, nearest]) h
    · exact h'
  · rw [hv]
    have := (fits_iff .i (by omega : 0 < 64) ((v.toList.take j).map laneInt).sum).not.mp h
    simpa [Kind.value] using this

theorem truncate_near (v : ℚ) : |(truncate v : ℚ) - v| < 1 := by
  unfold truncate
  rw [abs_lt]
  split
  · have h1 := Int.floor_le v
    have h2 := Int.lt_floor_add_one v
    constructor <;> linarith
  · have h1 := Int.le_ceil v
    have h2 := Int.ceil_lt_add_one v
    constructor <;> linarith

theorem truncate_abs (v : ℚ) : |(truncate v : ℚ)| ≤ |v| := by
  unfold truncate
  split
  · rename_i h
    rw [abs_of_nonneg h, abs_of_nonneg (by exact_mod_cast Int.floor_nonneg.mpr h)]
    exact Int.floor_le v
  · rename_i h
    have h' : v < 0 := not_le.mp h
    have h2 : ⌈v⌉ ≤ 0 := by
      rw [Int.ceil_le]
      push_cast
      linarith
    rw [abs_of_neg h', abs_of_nonpos (by exact_mod_cast h2)]
    have := Int.le_ceil v
    linarith

/-- Sums of numbers of limited size. -/
theorem sum_truncate_abs {M : ℚ} (l : List ℚ) (h : ∀ q ∈ l, |q| ≤ M) :
    |(((l.map truncate).sum : ℤ) : ℚ)| ≤ l.length * M := by
  induction l with
  | nil => simp
  | cons q l ih =>
    have h1 := ih fun q hq => h q (by simp [hq])
    have h2 := (truncate_abs q).trans (h q (by simp))
    simp only [List.map_cons, List.sum_cons, List.length_cons, Int.cast_add, Nat.cast_add, Nat.cast_one]
    refine (abs_add_le _ _).trans ?_
    linarith

theorem sum_truncate_near (l : List ℚ) (h : l ≠ []) :
    |(((l.map truncate).sum : ℤ) : ℚ) - l.sum| < l.length := by
  have key : ∀ l : List ℚ, |(((l.map truncate).sum : ℤ) : ℚ) - l.sum| ≤ l.length := by
    intro l
    induction l with
    | nil => simp
    | cons q l ih =>
      have h2 := truncate_near q
      simp only [List.map_cons, List.sum_cons, List.length_cons, Int.cast_add, Nat.cast_add, Nat.cast_one]
      rw [abs_le] at ih ⊢
      rw [abs_lt] at h2
      constructor <;> linarith [ih.1, ih.2, h2.1, h2.2]
  cases l with
  | nil => exact absurd rfl h
  | cons q l =>
    have h2 := truncate_near q
    have ih := key l
    simp only [List.map_cons, List.sum_cons, List.length_cons, Int.cast_add, Nat.cast_add, Nat.cast_one]
    rw [abs_le] at ih
    rw [abs_lt] at h2 ⊢
    constructor <;> linarith [ih.1, ih.2, h2.1, h2.2]

/-- **C121** for floats: if the values `qs` of the lanes are so small that no sum can
overflow, then `sum_upcast` is less than the number of lanes away from the exact sum, and
equal to it if all values are whole numbers. Missing: fractions (`C121_false`), NaN,
infinities and sums of more than 63 bits. -/
theorem C121_float_partial (c : Cfg) (hn : n = 32 ∨ n = 64) (hw : 0 < w) (v : Vector (BitVec n) w)
    (qs : List ℚ) (hq : v.toList.map ieee = qs.map .fin) (M : ℚ) (hM : ∀ q ∈ qs, |q| ≤ M)
    (hwM : w * M ≤ 2 ^ 63 - 1) :
    ∃ r, sumUpcastFloat c v = ok r ∧ |(r.toInt : ℚ) - qs.sum| < w ∧
      ((∀ q ∈ qs, ∃ z : ℤ, q = z) → (r.toInt : ℚ) = qs.sum) := by
  have hlen : qs.length = w := by
    have := congrArg List.length hq
    simpa using this.symm
  have hne : qs ≠ [] := by
    rintro rfl
    simp at hlen
    omega
  have hM0 : 0 ≤ M := by
    obtain ⟨q, hq⟩ := List.exists_mem_of_ne_nil qs hne
    exact (abs_nonneg q).trans (hM q hq)
  have hM1 : M ≤ 2 ^ 63 - 1 := by
    have : (1 : ℚ) ≤ w := by exact_mod_cast hw
    nlinarith
  have hfit : ∀ z : ℤ, |(z : ℚ)| ≤ 2 ^ 63 - 1 → nearest true 64 z = z := by
    intro z hz
    have : |z| ≤ 2 ^ 63 - 1 := by exact_mod_cast hz
    rw [abs_le] at this
    simp only [nearest, if_true]
    omega
  have hlane : ∀ l : List (BitVec n), ∀ qs : List ℚ, l.map ieee = qs.map .fin → (∀ q ∈ qs, |q| ≤ M) →
      l.map laneInt = qs.map truncate := by
    intro l
    induction l with
    | nil => intro qs h _; cases qs with
      | nil => rfl
      | cons => simp at h
    | cons x l ih =>
      intro qs h hb
      cases qs with
      | nil => simp at h
      | cons q qs =>
        simp only [List.map_cons, List.cons.injEq] at h ⊢
        refine ⟨?_, ih qs h.2 fun q hq => hb q (by simp [hq])⟩
        unfold laneInt
        rw [h.1]
        exact hfit _ ((truncate_abs q).trans ((hb q (by simp)).trans hM1))
  have hall := hlane v.toList qs hq hM
  obtain ⟨r, h1, h2⟩ := C121_float_fits c hn v (by
    intro j hj
    refine hfit _ ?_
    rw [List.map_take, hall, ← List.map_take]
    refine (sum_truncate_abs (M := M) (qs.take j) fun q hq => hM q (List.mem_of_mem_take hq)).trans ?_
    refine le_trans (mul_le_mul_of_nonneg_right ?_ hM0) hwM
    have : (qs.take j).length ≤ w := by simp; omega
    exact_mod_cast this)
  rw [hall] at h2
  refine ⟨r, h1, ?_, fun hz => ?_⟩
  · rw [h2]
    have := sum_truncate_near qs hne
    rw [hlen] at this
    exact this
  · rw [h2]
    clear h1 h2 hall hq hwM hM hlen hne hlane
    induction qs with
    | nil => simp
    | cons q qs ih =>
      obtain ⟨z, rfl⟩ := hz q (by simp)
      simp only [List.map_cons, List.sum_cons, truncate_int, Int.cast_add]
      rw [ih fun q hq => hz q (by simp [hq])]

/-- **C121** for 64-bit integers, in a release build: the sum modulo `2^64`. -/
theorem C121_int_release (c : Cfg) (hc : c.debug = false) (k : Kind) (v : Vector (BitVec 64) w) :
    sumUpcastFallback c k v = ok (BitVec.ofInt 64 (total k.signed v)) := by
  have he : ∀ x : BitVec 64, asI64 k x = x := by intro x; unfold asI64; split <;> simp
  unfold sumUpcastFallback
  simp only [he]
  rw [C53_scalar_reduce]
  have := foldlM_check_release c hc .i (fun x : BitVec 64 => x) v.toList 0#64
  rw [ofInt_total]
  refine this.trans ?_
  simp

/-- **C121, exactly, for 64-bit integers in release builds**: the exact sum if and only
if it fits in `i64`. -/
theorem C121_int_exact (c : Cfg) (hc : c.debug = false) (k : Kind) (v : Vector (BitVec 64) w) :
    (∃ r, sumUpcastFallback c k v = ok r ∧ r.toInt = total k.signed v) ↔
      -2 ^ 63 ≤ total k.signed v ∧ total k.signed v < 2 ^ 63 := by
  rw [C121_int_release c hc k v]
  constructor
  · rintro ⟨r, -, h⟩
    have h1 := BitVec.le_toInt r
    have h2 := BitVec.toInt_lt (x := r)
    rw [h] at h1 h2
    norm_num at h1 h2 ⊢
    exact ⟨h1, h2⟩
  · intro h
    exact ⟨_, rfl, Kind.value_ofInt .i (by omega) (by simp only [Kind.lo, Kind.hi]; omega)⟩

/-- **C121** for 64-bit integers, in every build: the sum of the lanes read as `i64`, if
no sum of the first lanes overflows; otherwise a debug build panics. -/
theorem C121_int_debug (c : Cfg) (hc : c.debug = true) (k : Kind) (v : Vector (BitVec 64) w) :
    ((∀ j, j ≤ w → Fits true 64 ((v.toList.take j).map (num true)).sum) →
      sumUpcastFallback c k v = ok (BitVec.ofInt 64 (total true v))) ∧
    (∀ j, j ≤ w → ¬ Fits true 64 ((v.toList.take j).map (num true)).sum →
      sumUpcastFallback c k v = panic) := by
  have he : ∀ x : BitVec 64, asI64 k x = x := by intro x; unfold asI64; split <;> simp
  have e : sumUpcastFallback c k v = sumFallback c .i v := by
    unfold sumUpcastFallback sumFallback
    simp only [he]
    rfl
  rw [e]
  exact ⟨fun h => C41_fallback_fits c .i (by omega) v h,
    fun j hj h => C41_fallback_debug c hc .i (by omega) v hj h⟩

/-- **C121 is false**: four halves are 2, their `sum_upcast` is 0; `sum_upcast` of a
vector with a NaN is a number; the sum of 2^63 and 0 as `u64` is negative. -/
theorem C121_false (c : Cfg) :
    (∃ v : Vector (BitVec 32) 4, v.toList.map ieee = List.replicate 4 (.fin (1 / 2)) ∧
      sumUpcastFloat c v = ok 0#64) ∧
    (∃ v : Vector (BitVec 32) 4, (∃ x ∈ v.toList, ieee x = .nan) ∧ sumUpcastFloat c v = ok 3#64) ∧
    ∃ (v : Vector (BitVec 64) 2) (r : BitVec 64), sumUpcastFallback c .u v = ok r ∧
      total false v = 2 ^ 63 ∧ r.toInt = -2 ^ 63 := by
  have half : ieee (0x3F000000#32) = .fin (1 / 2) := by
    have h0 : ieee (0x3F000000#32) ≠ .nan := fun h =>
      absurd ((fnan_iff (.inl rfl) _).mpr h) (by decide +kernel)
    obtain ⟨q, hq⟩ : ∃ q, ieee (0x3F000000#32) = .fin q := by
      cases h : ieee (0x3F000000#32) with
      | nan => exact absurd h h0
      | inf s => exact absurd ((inf_iff (.inl rfl) _ _).mp h).1 (by decide +kernel)
      | fin q => exact ⟨q, rfl⟩
    rw [hq, (fin_ieee (.inl rfl) hq).2]
    have h1 : fnum (0x3F000000#32) = 2 ^ 148 := by decide +kernel
    have h2 : fone 32 = 149 := by decide +kernel
    have h3 : fsign (0x3F000000#32) = 1 := by decide +kernel
    rw [h1, h2, h3]
    norm_num
  have run : ∀ (v : Vector (BitVec 32) 4) (r : BitVec 64), sumUpcastFloat debug64 v = ok r →
      sumUpcastFloat release64 v = ok r → sumUpcastFloat c v = ok r := by
    intro v r h1 h2
    obtain ⟨d, u⟩ := c
    cases d
    · exact h2
    · exact h1
  refine ⟨⟨#v[0x3F000000#32, 0x3F000000#32, 0x3F000000#32, 0x3F000000#32], ?_, ?_⟩,
    ⟨#v[0x3F800000#32, 0x3F800000#32, 0x3F800000#32, 0x7FC00000#32], ?_, ?_⟩,
    #v[0x8000000000000000#64, 0#64], 0x8000000000000000#64, ?_, by decide +kernel, by decide +kernel⟩
  · show [ieee _, ieee _, ieee _, ieee _] = _
    rw [half]
    rfl
  · exact run _ _ (by decide +kernel) (by decide +kernel)
  · exact ⟨0x7FC00000#32, by simp, (fnan_iff (.inl rfl) _).mp (by decide +kernel)⟩
  · exact run _ _ (by decide +kernel) (by decide +kernel)
  · obtain ⟨d, u⟩ := c
    cases d
    · show sumUpcastFallback release64 .u _ = _
      decide +kernel
    · show sumUpcastFallback debug64 .u _ = _
      decide +kernel

end Faster
