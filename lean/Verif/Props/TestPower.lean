import Verif.PatternTests
import Verif.Props.Protocol
/-
C131: which implementations pass the unit tests of `src/intrin`. The tests are taken as functions
of the implementation under test, which is arbitrary here: it may be wrong, panic, or be undefined
behaviour on some vectors. The literals are arbitrary, too.
-/
namespace Faster
open Res

variable {n w : Nat}

/-! ### The assertions -/

theorem assert_eq_ok {b : Bool} {u : Unit} : assert b = ok u ↔ b = true := by
  cases b <;> simp [assert]

theorem assertSame_eq_ok {α : Type} [DecidableEq α] {a b : α} {u : Unit} :
    assertSame a b = ok u ↔ a = b := by
  simp [assertSame, assert_eq_ok]

/-- `==` of two vectors of floats: all lanes are equal as floats. -/
def FloatSame (a b : Vector (BitVec n) w) : Prop := ∀ i (h : i < w), feq a[i] b[i] = true

theorem assertEq_eq_ok {a b : Vector (BitVec n) w} {u : Unit} : assertEq a b = ok u ↔ FloatSame a b := by
  simp [assertEq, assert_eq_ok, FloatSame, Vector.all_eq_true]

theorem extract_eq_ok {α : Type} {v : Vector α w} {i : Nat} {x : α} :
    Packed.extract v i = ok x ↔ ∃ h : i < w, v[i] = x := by
  unfold Packed.extract
  split <;> simp [*]

/-! ### C131: what the tests establish -/

/-- **C131**, `hadd`, `hsub`, `saturating_hadd` and `saturating_hsub` of integers. -/
theorem C131_hop {h : Vector (BitVec n) w → Vector (BitVec n) w → Res (Vector (BitVec n) w)}
    {x y x' y' a b p q r s : BitVec n} : hopTest h x y x' y' a b p q r s = ok () ↔
      h (Packed.splat x) (Packed.splat y) = ok (interleave x' y') ∧
      h (interleave a b) (interleave p q) = ok (interleave r s) := by
  simp [hopTest, bind_eq_ok, assertSame_eq_ok]

/-- **C131**, `hadd` and `hsub` of floats. -/
theorem C131_hop_float {h : Vector (BitVec n) w → Vector (BitVec n) w → Res (Vector (BitVec n) w)}
    {x y x' y' a b p q r s : BitVec n} : hopTestF h x y x' y' a b p q r s = ok () ↔
      (∃ u, h (Packed.splat x) (Packed.splat y) = ok u ∧ FloatSame u (interleave x' y')) ∧
      (∃ v, h (interleave a b) (interleave p q) = ok v ∧ FloatSame v (interleave r s)) := by
  simp only [hopTestF, bind_eq_ok, assertEq_eq_ok]
  constructor
  · rintro ⟨u, h1, _, h2, v, h3, h4⟩
    exact ⟨⟨u, h1, h2⟩, v, h3, h4⟩
  · rintro ⟨⟨u, h1, h2⟩, v, h3, h4⟩
    exact ⟨u, h1, (), h2, v, h3, h4⟩

/-- **C131**, `upcast`. -/
theorem C131_upcast {m : Nat}
    {up : Vector (BitVec n) w → Res (Vector (BitVec m) (w / 2) × Vector (BitVec m) (w / 2))}
    {x y : BitVec n} {x' y' : BitVec m} : upcastTest up x y x' y' = ok () ↔
      up (interleave x y) = ok (interleave x' y', interleave x' y') := by
  simp only [upcastTest, bind_eq_ok, assertSame_eq_ok]
  constructor
  · rintro ⟨u, h1, _, h2, v, h3, h4⟩
    rw [h1] at h3
    cases h3
    rw [h1]
    exact congrArg ok (Prod.ext h2 h4)
  · intro h
    exact ⟨_, h, (), rfl, _, h, rfl⟩

/-- **C131**, `abs` of integers: only lane 0, for all numbers of the range. -/
theorem C131_abs {abs : Vector (BitVec n) w → Res (Vector (BitVec n) w)} (k : Nat) (i : Int) :
    absTest abs k i = ok () ↔ ∀ j < k, ∃ v, abs (Packed.splat (BitVec.ofInt n (i + j))) = ok v ∧
      ∃ h : 0 < w, v[0] = BitVec.ofNat n (i + j).natAbs := by
  induction k generalizing i with
  | zero => simp [absTest]
  | succ k ih =>
    simp only [absTest, bind_eq_ok, assertSame_eq_ok, extract_eq_ok, ih]
    constructor
    · rintro ⟨v, h1, x, ⟨hw, rfl⟩, _, h2, h3⟩ j hj
      cases j with
      | zero => exact ⟨v, by simpa using h1, hw, by simpa using h2⟩
      | succ j =>
        have := h3 j (by omega)
        rwa [show i + ((j + 1 : Nat) : Int) = i + 1 + (j : Int) by omega]
    · intro h
      obtain ⟨v, h1, hw, h2⟩ := h 0 (by omega)
      simp only [Int.natCast_zero, Int.add_zero] at h1 h2
      refine ⟨v, h1, _, ⟨hw, rfl⟩, (), h2, fun j hj => ?_⟩
      have := h (j + 1) (by omega)
      rwa [show i + ((j + 1 : Nat) : Int) = i + 1 + (j : Int) by omega] at this

/-- The value of a loop variable after `j` steps `i += 1.0`. -/
def afterSteps (i : BitVec n) : Nat → BitVec n
  | 0 => i
  | j + 1 => afterSteps (fadd i (fofInt n 1)) j

/-- **C131**, `abs` of floats: only lane 0, for the values of the loop variable, of which there are
less than the fuel. -/
theorem C131_abs_float {abs : Vector (BitVec n) w → Res (Vector (BitVec n) w)} {limit : BitVec n}
    (fuel : Nat) (i : BitVec n) : absTestF abs limit fuel i = ok () ↔
      ∃ m < fuel, flt (afterSteps i m) limit = false ∧ ∀ j < m, flt (afterSteps i j) limit = true ∧
        ∃ v, abs (Packed.splat (afterSteps i j)) = ok v ∧
          ∃ h : 0 < w, feq v[0] (fabsScalar (afterSteps i j)) = true := by
  induction fuel generalizing i with
  | zero => simp [absTestF]
  | succ fuel ih =>
    simp only [absTestF]
    split
    · rename_i hlt
      simp only [bind_eq_ok, assert_eq_ok, extract_eq_ok, ih]
      constructor
      · rintro ⟨v, h1, x, ⟨hw, rfl⟩, _, h2, m, hm, h3, h4⟩
        refine ⟨m + 1, by omega, h3, fun j hj => ?_⟩
        cases j with
        | zero => exact ⟨hlt, v, h1, hw, h2⟩
        | succ j => exact h4 j (by omega)
      · rintro ⟨m, hm, h3, h4⟩
        cases m with
        | zero => rw [afterSteps, hlt] at h3; cases h3
        | succ m =>
          obtain ⟨-, v, h1, hw, h2⟩ := h4 0 (by omega)
          exact ⟨v, h1, _, ⟨hw, rfl⟩, (), h2, m, by omega, h3, fun j hj => h4 (j + 1) (by omega)⟩
    · rename_i hlt
      rw [Bool.not_eq_true] at hlt
      refine iff_of_true rfl ⟨0, by omega, hlt, by omega⟩

/-- **C131**, `popcnt`: the numbers of set bits of two constant vectors. -/
theorem C131_popcnt (c : Cfg) {size : Nat} {ones : Vector (BitVec n) w → Res Nat} (hs : 0 < size)
    (hu : w * size * 8 < c.usize) : popTest c size ones = ok () ↔
      ones (Packed.splat 1#n) = ok w ∧ ones (Packed.splat (~~~ 0#n)) = ok (w * size * 8) := by
  have hws : w * 1 ≤ w * size := Nat.mul_le_mul_left _ hs
  have hu1 : w * size < c.usize := by omega
  have hz : ∀ o, countZeroes c w size o = o >>= fun o => usub c (w * size * 8) o := by
    intro o
    simp only [countZeroes]
    rw [umul_ok hu1]
    simp only [ok_bind]
    rw [umul_ok hu]
    rfl
  simp only [popTest, hz, bind_eq_ok, assertSame_eq_ok]
  rw [umul_ok hu1]
  constructor
  · rintro ⟨a, h1, _, rfl, z, -, a', -, s, -, t, -, t', -, _, -, o, h2, t2, h3, t3, h4, _, h5, -⟩
    cases h3
    rw [umul_ok hu] at h4
    cases h4
    exact ⟨h1, by rw [h2, h5]⟩
  · rintro ⟨h1, h2⟩
    have h3 : usub c (w * size * 8) w = ok (w * size * 8 - w) := usub_ok (by omega)
    have h4 : uadd c (w * size * 8 - w) w = ok (w * size * 8) := by
      rw [uadd_ok (by omega)]
      congr 1; omega
    refine ⟨w, h1, (), rfl, _, ⟨w, h1, h3⟩, w, h1, _, h4, _, rfl, _, umul_ok hu, (), rfl,
      _, h2, _, rfl, _, umul_ok hu, (), rfl, 0, ⟨_, h2, ?_⟩, rfl⟩
    rw [usub_ok (Nat.le_refl _), Nat.sub_self]

/-- **C131**, `sum` and `sum_upcast` of integers, one iteration. -/
theorem C131_sum_body (c : Cfg) (k : Kind) {sum : Vector (BitVec n) w → Res (BitVec n)}
    {up : Vector (BitVec n) w → Res (BitVec 64)} {x : BitVec n} : sumBody c k sum up x = ok () ↔
      (∃ a, sum (Packed.splat x) = ok a ∧
        Packed.scalarReduce (Packed.splat x : Vector (BitVec n) w) 0#n (fun acc s =>
          overflowCheck c k (k.value acc + k.value s) (acc + s)) = ok a) ∧
      (∃ a, up (Packed.splat x) = ok a ∧
        Packed.scalarReduce (Packed.splat x : Vector (BitVec n) w) 0#64 (fun acc s =>
          overflowCheck c .i (acc.toInt + (asI64 k s).toInt) (acc + asI64 k s)) = ok a) := by
  simp only [sumBody, bind_eq_ok, assertSame_eq_ok]
  constructor
  · rintro ⟨a, h1, b, h2, _, rfl, a', h3, b', h4, rfl⟩
    exact ⟨⟨a, h1, h2⟩, a', h3, h4⟩
  · rintro ⟨⟨a, h1, h2⟩, a', h3, h4⟩
    exact ⟨a, h1, a, h2, (), rfl, a', h3, a', h4, rfl⟩

/-- **C131**, `sum` and `sum_upcast` of floats: all numbers of the range. -/
theorem C131_sum_float (c : Cfg) {sum : Vector (BitVec n) w → Res (BitVec n)}
    {up : Vector (BitVec n) w → Res (BitVec 64)} (k : Nat) (i : Int) :
    sumTestF c sum up k i = ok () ↔ ∀ j < k,
      (∃ a b, sum (Packed.splat (fofInt n (i + j))) = ok a ∧
        Packed.scalarReduce (Packed.splat (fofInt n (i + j)) : Vector (BitVec n) w) (fZero n false)
          (fun acc s => ok (fadd acc s)) = ok b ∧ feq a b = true) ∧
      (∃ a, up (Packed.splat (fofInt n (i + j))) = ok a ∧
        Packed.scalarReduce (Packed.splat (fofInt n (i + j)) : Vector (BitVec n) w) 0#64 (fun acc s =>
          overflowCheck c .i (acc.toInt + (ftoInt .i 64 s).toInt) (acc + ftoInt .i 64 s)) = ok a) := by
  induction k generalizing i with
  | zero => simp [sumTestF]
  | succ k ih =>
    simp only [sumTestF, bind_eq_ok, assertSame_eq_ok, assert_eq_ok, ih]
    constructor
    · rintro ⟨a, h1, b, h2, _, h3, a', h4, b', h5, _, rfl, h6⟩ j hj
      cases j with
      | zero =>
        simp only [Int.natCast_zero, Int.add_zero]
        exact ⟨⟨a, b, h1, h2, h3⟩, a', h4, h5⟩
      | succ j =>
        rw [show i + ((j + 1 : Nat) : Int) = i + 1 + (j : Int) by omega]
        exact h6 j (by omega)
    · intro h
      have h0 := h 0 (by omega)
      simp only [Int.natCast_zero, Int.add_zero] at h0
      obtain ⟨⟨a, b, h1, h2, h3⟩, a', h4, h5⟩ := h0
      refine ⟨a, h1, b, h2, (), h3, a', h4, a', h5, (), rfl, fun j hj => ?_⟩
      rw [show i + 1 + (j : Int) = i + ((j + 1 : Nat) : Int) by omega]
      exact h (j + 1) (by omega)

/-- **C131**, merges: four constant vectors and all partitions of them. -/
theorem C131_merge {same : Vector (BitVec n) w → Vector (BitVec n) w → Res Unit}
    {mi mh : Vector (BitVec n) w → Vector (BitVec n) w → Res (Vector (BitVec n) w)}
    {mp : Vector (BitVec n) w → Vector (BitVec n) w → Nat → Res (Vector (BitVec n) w)}
    {part : BitVec n → BitVec n → Nat → Res (Vector (BitVec n) w)} {x y : BitVec n} :
    mergeTest same mi mh mp part x y = ok () ↔
      (∃ u, mi (Packed.splat x) (Packed.splat y) = ok u ∧ same u (interleave x y) = ok ()) ∧
      (∃ u, mi (Packed.splat y) (Packed.splat x) = ok u ∧ same u (interleave y x) = ok ()) ∧
      (∃ u, mh (Packed.splat x) (Packed.splat y) = ok u ∧ same u (halfs x y) = ok ()) ∧
      (∃ u, mh (Packed.splat y) (Packed.splat x) = ok u ∧ same u (halfs y x) = ok ()) ∧
      ∀ i < w,
        (∃ u v, mp (Packed.splat x) (Packed.splat y) i = ok u ∧ part x y i = ok v ∧ same u v = ok ()) ∧
        (∃ u v, mp (Packed.splat y) (Packed.splat x) i = ok u ∧ part y x i = ok v ∧ same u v = ok ()) := by
  have loop : ∀ k i, mergeTestLoop same mp part x y k i = ok () ↔ ∀ j < k,
      (∃ u v, mp (Packed.splat x) (Packed.splat y) (i + j) = ok u ∧ part x y (i + j) = ok v ∧
        same u v = ok ()) ∧
      (∃ u v, mp (Packed.splat y) (Packed.splat x) (i + j) = ok u ∧ part y x (i + j) = ok v ∧
        same u v = ok ()) := by
    intro k
    induction k with
    | zero => intro i; simp [mergeTestLoop]
    | succ k ih =>
      intro i
      simp only [mergeTestLoop, bind_eq_ok, ih]
      constructor
      · rintro ⟨u, h1, v, h2, _, h3, u', h4, v', h5, _, h6, h7⟩ j hj
        cases j with
        | zero => exact ⟨⟨u, v, h1, h2, h3⟩, u', v', h4, h5, h6⟩
        | succ j =>
          rw [show i + (j + 1) = i + 1 + j by omega]
          exact h7 j (by omega)
      · intro h
        obtain ⟨⟨u, v, h1, h2, h3⟩, u', v', h4, h5, h6⟩ := h 0 (by omega)
        refine ⟨u, h1, v, h2, (), h3, u', h4, v', h5, (), h6, fun j hj => ?_⟩
        rw [show i + 1 + j = i + (j + 1) by omega]
        exact h (j + 1) (by omega)
  simp only [mergeTest, bind_eq_ok, loop, Nat.zero_add]
  constructor
  · rintro ⟨a, h1, _, h2, b, h3, _, h4, d, h5, _, h6, e, h7, _, h8, h9⟩
    exact ⟨⟨a, h1, h2⟩, ⟨b, h3, h4⟩, ⟨d, h5, h6⟩, ⟨e, h7, h8⟩, h9⟩
  · rintro ⟨⟨a, h1, h2⟩, ⟨b, h3, h4⟩, ⟨d, h5, h6⟩, ⟨e, h7, h8⟩, h9⟩
    exact ⟨a, h1, (), h2, b, h3, (), h4, d, h5, (), h6, e, h7, (), h8, h9⟩

/-- **C131**, `swap_bytes`: one vector. -/
theorem C131_swap_bytes {swap : Vector (BitVec n) w → Res (Vector (BitVec n) w)} {x y : BitVec n} :
    swapTest swap x y = ok () ↔
      swap (interleave x y) = ok (interleave (swapBytesScalar x) (swapBytesScalar y)) := by
  simp [swapTest, bind_eq_ok, assertSame_eq_ok]

/-- **C131**, `flip`: one vector. -/
theorem C131_flip {same : Vector (BitVec n) w → Vector (BitVec n) w → Res Unit}
    {flip : Vector (BitVec n) w → Res (Vector (BitVec n) w)} {x y : BitVec n} :
    flipTest same flip x y = ok () ↔
      ∃ u, flip (interleave x y) = ok u ∧ same u (interleave y x) = ok () := by
  simp [flipTest, bind_eq_ok]

/-- **C131**, `eq_mask` and `ne_mask`: two pairs of vectors; the assertions on `ne_mask` follow from
the others since it is the complement. -/
theorem C131_eq {eq : Vector (BitVec n) w → Vector (BitVec n) w → Res (Vector (BitVec n) w)}
    {x y : BitVec n} : eqTest eq x y = ok () ↔
      eq (halfs x y) (Packed.splat y) = ok (halfs 0#n (BitVec.allOnes n)) ∧
      eq (interleave x y) (Packed.splat x) = ok (interleave (BitVec.allOnes n) 0#n) := by
  simp only [eqTest, bind_eq_ok, assertSame_eq_ok]
  constructor
  · rintro ⟨m, h1, _, rfl, m', h2, _, rfl, -⟩
    exact ⟨h1, h2⟩
  · rintro ⟨h1, h2⟩
    refine ⟨_, h1, (), rfl, _, h2, (), rfl, _, h1, (), ?_, _, h2, ?_⟩
    · apply Vector.ext
      intro i hi
      by_cases h : i < w / 2 <;> simp [neMask, ones, Packed.splat, halfs, h]
    · apply Vector.ext
      intro i hi
      by_cases h : i % 2 = 0 <;> simp [neMask, ones, Packed.splat, interleave, h]

/-- **C131**, `sqrt`: two constant vectors. -/
theorem C131_sqrt {sqrt : Vector (BitVec n) w → Res (Vector (BitVec n) w)}
    {max min : Vector (BitVec n) w → Vector (BitVec n) w → Res (Vector (BitVec n) w)}
    {one x lo hi : BitVec n} : sqrtTest sqrt max min one x lo hi = ok () ↔
      (∃ u, sqrt (Packed.splat one) = ok u ∧ FloatSame u (Packed.splat one)) ∧
      ∃ v, sqrt (Packed.splat x) = ok v ∧
        (∃ u, max v (Packed.splat lo) = ok u ∧ FloatSame u v) ∧
        (∃ u, min v (Packed.splat hi) = ok u ∧ FloatSame u v) := by
  simp only [sqrtTest, bind_eq_ok, assertEq_eq_ok]
  constructor
  · rintro ⟨u, h1, _, h2, v, h3, a, h4, v', h5, _, h6, v2, h7, b, h8, v3, h9, h10⟩
    rw [h3] at h5 h7 h9
    cases h5; cases h7; cases h9
    exact ⟨⟨u, h1, h2⟩, v, h3, ⟨a, h4, h6⟩, b, h8, h10⟩
  · rintro ⟨⟨u, h1, h2⟩, v, h3, ⟨a, h4, h6⟩, b, h8, h10⟩
    exact ⟨u, h1, (), h2, v, h3, a, h4, v, h3, (), h6, v, h3, b, h8, v, h3, h10⟩

/-- **C131**, `recip`: only lane 0, for the values of the loop variable. -/
theorem C131_recip {recip : Vector (BitVec 32) w → Res (Vector (BitVec 32) w)} {limit : BitVec 32}
    (fuel : Nat) (i : BitVec 32) : recipTest recip limit fuel i = ok () ↔
      ∃ m < fuel, flt (afterSteps i m) limit = false ∧ ∀ j < m, flt (afterSteps i j) limit = true ∧
        ∃ v, recip (Packed.splat (afterSteps i j)) = ok v ∧ ∃ h : 0 < w,
          (feq (fdiv (fofInt 32 1) (afterSteps i j)) (fInf 32 false) = true ∧
              feq v[0] (fInf 32 false) = true ∨
            flt (fabsScalar (fsub v[0] (fdiv (fofInt 32 1) (afterSteps i j)))) (flit 32 5 10000) = true) := by
  induction fuel generalizing i with
  | zero => simp [recipTest]
  | succ fuel ih =>
    simp only [recipTest]
    split
    · rename_i hlt
      simp only [bind_eq_ok, assert_eq_ok, extract_eq_ok, ih, Bool.or_eq_true, Bool.and_eq_true]
      constructor
      · rintro ⟨v, h1, x, ⟨hw, rfl⟩, y, ⟨_, hy⟩, _, h2, m, hm, h3, h4⟩
        refine ⟨m + 1, by omega, h3, fun j hj => ?_⟩
        have hy' : fdiv (fofInt 32 1) i = y := by rw [← hy]; simp [Packed.splat]
        cases j with
        | zero => exact ⟨hlt, v, h1, hw, by simp only [afterSteps, hy']; exact h2⟩
        | succ j => exact h4 j (by omega)
      · rintro ⟨m, hm, h3, h4⟩
        cases m with
        | zero => rw [afterSteps, hlt] at h3; cases h3
        | succ m =>
          obtain ⟨-, v, h1, hw, h2⟩ := h4 0 (by omega)
          exact ⟨v, h1, _, ⟨hw, rfl⟩, _, ⟨hw, by simp [Packed.splat]; rfl⟩, (), h2, m, by omega, h3,
            fun j hj => h4 (j + 1) (by omega)⟩
    · rename_i hlt
      rw [Bool.not_eq_true] at hlt
      refine iff_of_true rfl ⟨0, by omega, hlt, by omega⟩


/-! ### C131: what the tests do not see -/

/-- The lanes of a vector in another order. -/
def reorder {α : Type} (σ : Fin w → Fin w) (v : Vector α w) : Vector α w := Vector.ofFn fun i => v[σ i]

theorem reorder_interleave {α : Type} {σ : Fin w → Fin w} (hσ : ∀ i, (σ i).val % 2 = i.val % 2) (x y : α) :
    reorder σ (interleave x y : Vector α w) = interleave x y := by
  apply Vector.ext
  intro i hi
  simp only [reorder, interleave, Vector.getElem_ofFn, Fin.getElem_fin, hσ]

/-- **C131**: the tests of horizontal operations and `swap_bytes` do not see if the lanes of
the result are in another order, as long as even ones stay even. -/
theorem C131_blind_order {σ : Fin w → Fin w} (hσ : ∀ i, (σ i).val % 2 = i.val % 2)
    {h : Vector (BitVec n) w → Vector (BitVec n) w → Res (Vector (BitVec n) w)}
    {s : Vector (BitVec n) w → Res (Vector (BitVec n) w)} {x y x' y' a b p q r t : BitVec n} :
    (hopTest h x y x' y' a b p q r t = ok () →
      hopTest (fun a b => h a b >>= fun v => ok (reorder σ v)) x y x' y' a b p q r t = ok ()) ∧
    (swapTest s x y = ok () → swapTest (fun a => s a >>= fun v => ok (reorder σ v)) x y = ok ()) := by
  constructor
  · intro h1
    rw [C131_hop] at h1 ⊢
    simp only [h1.1, h1.2, ok_bind, reorder_interleave hσ, and_self]
  · intro h1
    rw [C131_swap_bytes] at h1 ⊢
    simp only [h1, ok_bind, reorder_interleave hσ]

/-- **C131**: the test of `upcast` does not see if the halves are exchanged. -/
theorem C131_blind_halves {m : Nat}
    {up : Vector (BitVec n) w → Res (Vector (BitVec m) (w / 2) × Vector (BitVec m) (w / 2))}
    {x y : BitVec n} {x' y' : BitVec m} (h : upcastTest up x y x' y' = ok ()) :
    upcastTest (fun v => up v >>= fun q => ok (q.2, q.1)) x y x' y' = ok () := by
  rw [C131_upcast] at h ⊢
  rw [h]
  rfl

/-- **C131**: the tests of `abs` and `recip` see lane 0 only: whatever is done to the other lanes of
the results, they pass. -/
theorem C131_blind_lanes {g : Vector (BitVec n) w → Vector (BitVec n) w}
    (hg : ∀ v (h : 0 < w), (g v)[0] = v[0]) {abs : Vector (BitVec n) w → Res (Vector (BitVec n) w)} :
    (∀ k i, absTest abs k i = ok () → absTest (fun v => abs v >>= fun u => ok (g u)) k i = ok ()) ∧
    (∀ limit fuel i, absTestF abs limit fuel i = ok () →
      absTestF (fun v => abs v >>= fun u => ok (g u)) limit fuel i = ok ()) := by
  constructor
  · intro k i h
    rw [C131_abs] at h ⊢
    intro j hj
    obtain ⟨v, h1, hw, h2⟩ := h j hj
    exact ⟨g v, by rw [h1]; rfl, hw, by rw [hg v hw, h2]⟩
  · intro limit fuel i h
    rw [C131_abs_float] at h ⊢
    obtain ⟨m, hm, h0, h⟩ := h
    refine ⟨m, hm, h0, fun j hj => ?_⟩
    obtain ⟨hlt, v, h1, hw, h2⟩ := h j hj
    exact ⟨hlt, g v, by rw [h1]; rfl, hw, by rw [hg v hw, h2]⟩

theorem C131_blind_recip {g : Vector (BitVec 32) w → Vector (BitVec 32) w}
    (hg : ∀ v (h : 0 < w), (g v)[0] = v[0]) {recip : Vector (BitVec 32) w → Res (Vector (BitVec 32) w)}
    {limit : BitVec 32} {fuel : Nat} {i : BitVec 32} (h : recipTest recip limit fuel i = ok ()) :
    recipTest (fun v => recip v >>= fun u => ok (g u)) limit fuel i = ok () := by
  rw [C131_recip] at h ⊢
  obtain ⟨m, hm, h0, h⟩ := h
  refine ⟨m, hm, h0, fun j hj => ?_⟩
  obtain ⟨hlt, v, h1, hw, h2⟩ := h j hj
  exact ⟨hlt, g v, by rw [h1]; rfl, hw, by rw [hg v hw]; exact h2⟩

/-- The vector all of whose lanes are lane 0. -/
def lane0 {α : Type} (hw : 0 < w) (v : Vector α w) : Vector α w := Packed.splat v[0]

theorem lane0_splat {α : Type} (hw : 0 < w) (x : α) :
    lane0 hw (Packed.splat x : Vector α w) = Packed.splat x := by
  simp [lane0, Packed.splat]

/-- **C131**: the tests of `popcnt`, `sum`, `sum_upcast` and of the merges pass with implementations
which look at lane 0 of their arguments only. -/
theorem C131_blind_constant (hw : 0 < w) (c : Cfg) :
    (∀ size (count : Vector (BitVec n) w → Res Nat), 0 < size → w * size * 8 < c.usize →
      popTest c size count = ok () → popTest c size (count ∘ lane0 hw) = ok ()) ∧
    (∀ k sum up (x : BitVec n), sumBody c k sum up x = ok () →
      sumBody c k (sum ∘ lane0 hw) (up ∘ lane0 hw) x = ok ()) ∧
    (∀ sum up k i, sumTestF (n := n) c sum up k i = ok () →
      sumTestF c (sum ∘ lane0 hw) (up ∘ lane0 hw) k i = ok ()) ∧
    (∀ same mi mh mp part (x y : BitVec n), mergeTest same mi mh mp part x y = ok () →
      mergeTest same (fun a b => mi (lane0 hw a) (lane0 hw b)) (fun a b => mh (lane0 hw a) (lane0 hw b))
        (fun a b i => mp (lane0 hw a) (lane0 hw b) i) part x y = ok ()) := by
  refine ⟨?_, ?_, ?_, ?_⟩
  · intro size count hs hu h
    rw [C131_popcnt c hs hu] at h ⊢
    simpa only [Function.comp, lane0_splat] using h
  · intro k sum up x h
    rw [C131_sum_body] at h ⊢
    simpa only [Function.comp, lane0_splat] using h
  · intro sum up k i h
    rw [C131_sum_float] at h ⊢
    simpa only [Function.comp, lane0_splat] using h
  · intro same mi mh mp part x y h
    rw [C131_merge] at h ⊢
    simpa only [lane0_splat] using h

/-- Non-vacuity: an addition of pairs in the order of `_mm256_hadd_epi32` (pairs of the first half of
both operands first) passes the test of `hadd` with its literals, but is another function than the
`hadd` of the crate. -/
example :
    let σ : Fin 8 → Fin 8 := fun i => ⟨[0, 1, 4, 5, 2, 3, 6, 7].getD i.val 0, by revert i; decide⟩
    let h : Vector (BitVec 32) 8 → Vector (BitVec 32) 8 → Res (Vector (BitVec 32) 8) :=
      fun a b => ok (Vector.ofFn fun i => if i.val % 2 = 0 then a[i] + a[(i.val + 1) % 8] else b[i.val - 1] + b[i])
    hopTest (fun a b => h a b >>= fun v => ok (reorder σ v)) 1 2 2 4 1 2 3 4 3 7 = ok () ∧
      (h #v[1, 2, 3, 4, 5, 6, 7, 8] (Packed.splat 0) >>= fun v => ok (reorder σ v)) ≠
        h #v[1, 2, 3, 4, 5, 6, 7, 8] (Packed.splat 0) := by decide +kernel

/-- Non-vacuity: `abs` with garbage in the other lanes, on all numbers of eight bits. -/
example : absTest (n := 8) (w := 4)
    (fun v => ok #v[BitVec.ofNat 8 v[0].toInt.natAbs, 7, 7, 7]) 256 (-128) = ok () := by decide +kernel

end Faster
