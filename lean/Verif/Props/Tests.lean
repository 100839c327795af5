import Verif.Tests
import Verif.Props.FloatZip
import Verif.Props.ForEach
/-
C112: the programs of tests/iters.rs and tests/kernel.rs compute what the tests expect, on
every input.
-/
namespace Faster
open Res SIMDSized SIMDIterable SIMDIterator

variable {n w : Nat}

/-! ### in_place_mutation -/

/-- **C112**, `in_place_mutation` for any slice and any divisor: the same bits as the scalar
loop. -/
theorem C112_in_place (c : Cfg) (fuel : Nat) (s : BitVec 32) (data : List (BitVec 32)) (hw : 0 < w)
    (hlen : data.length + w < c.usize) (hfuel : data.length / w < fuel) :
    divInPlace w c fuel s data = ok (divScalar s data) := by
  have e : (fun (_ : Unit) (x : Vector (BitVec 32) w) =>
      ok (Vector.zipWith fdiv x (Packed.splat s), ())) = pureFn (Vector.map fun x => fdiv x s) := by
    funext _ x
    unfold pureFn
    congr 2
    ext i hi
    simp [Packed.splat]
  unfold divInPlace divScalar
  rw [e, C10_for_each c fuel data _ _ hw hlen hfuel]
  rfl

/-- The lengths of the test around a width of 4: 0 to 4, halved. -/
example : divInPlace 4 debug64 9 0x40000000#32
    [0, 0x3F800000, 0x40000000, 0x40400000, 0x40800000] =
    ok [0, 0x3F000000, 0x3F800000, 0x3FC00000, 0x40000000] := by decide +kernel

/-! ### Sums which fit, in every build -/

theorem num_ofInt_fits (k : Kind) (h0 : 0 < n) {z : Int} (h : Fits k.signed n z) :
    num k.signed (BitVec.ofInt n z) = z := by
  rw [num_eq]
  exact k.value_ofInt h0 ((fits_iff k h0 z).mp h)

theorem fits_between (k : Kind) (h0 : 0 < n) {a b : Int} (hb : Fits k.signed n b) (ha : 0 ≤ a)
    (hab : a ≤ b) : Fits k.signed n a := by
  rw [fits_iff k h0] at hb ⊢
  have : k.lo n ≤ 0 := by
    have := (k.value_bounds h0 (0#n)).1
    have hz : k.value 0#n = 0 := by cases k <;> simp [Kind.value]
    omega
  omega

theorem foldl_add_lane (us : List (Vector (BitVec n) w)) (acc : Vector (BitVec n) w) {i : Nat}
    (hi : i < w) : (us.foldl (fun a v => Vector.zipWith (· + ·) a v) acc)[i] =
      acc[i] + (us.map fun v => v[i]?.getD 0).sum := by
  induction us generalizing acc with
  | nil => simp
  | cons v us ih =>
    rw [List.foldl_cons, ih, Vector.getElem_zipWith, List.map_cons, List.sum_cons,
      BitVec.add_assoc]
    simp [hi]

/-- A version of `sum` which is right in every build if no lane is negative and the sum fits. -/
def SafeSum (k : Kind) (F : Vector (BitVec n) w → Res (BitVec n)) : Prop :=
  ∀ v, (∀ x ∈ v.toList, 0 ≤ num k.signed x) → Fits k.signed n (v.toList.map (num k.signed)).sum →
    F v = ok (BitVec.ofInt n (v.toList.map (num k.signed)).sum)

theorem take_drop_fits (k : Kind) (h0 : 0 < n) (l : List (BitVec n)) (hpos : ∀ x ∈ l, 0 ≤ num k.signed x)
    (hfit : Fits k.signed n (l.map (num k.signed)).sum) (j : Nat) :
    Fits k.signed n ((l.take j).map (num k.signed)).sum ∧
      Fits k.signed n ((l.drop j).map (num k.signed)).sum := by
  have h1 : 0 ≤ ((l.take j).map (num k.signed)).sum := List.sum_nonneg fun y hy => by
    obtain ⟨x, hx, rfl⟩ := List.mem_map.1 hy
    exact hpos x (List.mem_of_mem_take hx)
  have h2 : 0 ≤ ((l.drop j).map (num k.signed)).sum := List.sum_nonneg fun y hy => by
    obtain ⟨x, hx, rfl⟩ := List.mem_map.1 hy
    exact hpos x (List.mem_of_mem_drop hx)
  have h3 : (l.map (num k.signed)).sum =
      ((l.take j).map (num k.signed)).sum + ((l.drop j).map (num k.signed)).sum := by
    conv_lhs => rw [← List.take_append_drop j l, List.map_append, List.sum_append]
  exact ⟨fits_between k h0 hfit h1 (by omega), fits_between k h0 hfit h2 (by omega)⟩

/-- **C112**: every integer version of `sum` is of this kind, in every build. -/
theorem C112_sums (c : Cfg) {o : I8Ops 16} (ho : I8Correct o) {o' : I8Ops 32} (ho' : I8Correct o')
    {up} (hup : UpCorrect false up) :
    (∀ (n w : Nat) (k : Kind), 0 < n → SafeSum k (sumFallback (n := n) (w := w) c k)) ∧
    SafeSum .u (sumU8 (w := 16) c [0, 4]) ∧ SafeSum .u (sumU8 (w := 32) c [0, 4, 8, 12]) ∧
    SafeSum .i (sumI8 o [0, 4]) ∧ SafeSum .i (sumI8 o' [0, 4, 8, 12]) ∧
    SafeSum .i sumI16x8 ∧ SafeSum .i (sumI16x16 c) ∧ SafeSum .i (sumI32x8 c) ∧
    SafeSum .u (sumU16x16 c up) :=
  ⟨fun _ _ k h0 v hp hf => C41_fallback_fits c k h0 v fun j _ => (take_drop_fits k h0 _ hp hf j).1,
    fun v _ _ => C41_u8x16 c v, fun v _ _ => C41_u8x32 c v,
    fun v _ _ => C41_i8x16 ho v, fun v _ _ => C41_i8x32 ho' v, fun v _ _ => C41_i16x8 v,
    fun v hp hf => C41_i16x16_partial c v (.inr
      ⟨(take_drop_fits .i (by decide) _ hp hf 8).1, (take_drop_fits .i (by decide) _ hp hf 8).2, hf⟩),
    fun v hp hf => C41_i32x8_partial c v (.inr
      ⟨(take_drop_fits .i (by decide) _ hp hf 4).1, (take_drop_fits .i (by decide) _ hp hf 4).2, hf⟩),
    fun v _ _ => C41_u16x16 c hup v⟩

/-- Adding vectors and then the lanes: no check fails if the numbers are not negative and their sum
fits. -/
theorem safeSum_vectors (k : Kind) {F : Vector (BitVec n) w → Res (BitVec n)} (hF : SafeSum k F)
    (h0 : 0 < n) (us : List (Vector (BitVec n) w))
    (hpos : ∀ x ∈ lanes us, 0 ≤ num k.signed x)
    (hfit : Fits k.signed n ((lanes us).map (num k.signed)).sum) :
    F (us.foldl (fun a v => Vector.zipWith (· + ·) a v) (Packed.splat 0)) =
      ok (BitVec.ofInt n ((lanes us).map (num k.signed)).sum) := by
  have hcol := sum_columns us (num k.signed)
  have hnn : ∀ i < w, 0 ≤ (us.map fun v => num k.signed (v[i]?.getD 0)).sum := by
    intro i hi
    apply List.sum_nonneg
    intro y hy
    obtain ⟨u, hu, rfl⟩ := List.mem_map.1 hy
    simp only [hi, getElem?_pos, Option.getD_some]
    exact hpos _ (List.mem_flatMap.2 ⟨u, hu, by simp⟩)
  have hle : ∀ i < w, (us.map fun v => num k.signed (v[i]?.getD 0)).sum ≤
      ((lanes us).map (num k.signed)).sum := by
    intro i hi
    rw [← hcol]
    apply List.single_le_sum
    · intro y hy
      obtain ⟨j, hj, rfl⟩ := List.mem_map.1 hy
      exact hnn j (List.mem_range.1 hj)
    · exact List.mem_map.2 ⟨i, List.mem_range.2 hi, rfl⟩
  set acc := us.foldl (fun a v => Vector.zipWith (· + ·) a v) (Packed.splat 0) with hacc
  have hlane : ∀ i (hi : i < w), num k.signed acc[i] =
      (us.map fun v => num k.signed (v[i]?.getD 0)).sum := by
    intro i hi
    have h1 : acc[i] = BitVec.ofInt n (us.map fun v => num k.signed (v[i]?.getD 0)).sum := by
      rw [hacc, foldl_add_lane _ _ hi, ofInt_sum_map us _ (fun v => v[i]?.getD 0)
        (fun v => ofInt_num _ _)]
      simp [Packed.splat]
    rw [h1]
    exact num_ofInt_fits k h0 (fits_between k h0 hfit (hnn i hi) (hle i hi))
  have hlist : acc.toList.map (num k.signed) =
      (List.range w).map fun i => (us.map fun v => num k.signed (v[i]?.getD 0)).sum := by
    apply List.ext_getElem
    · simp
    · intro i h1 h2
      simp only [List.length_map, List.length_range] at h2
      simp [hlane i h2]
  have htot : (acc.toList.map (num k.signed)).sum = ((lanes us).map (num k.signed)).sum := by
    rw [← hcol, ← hlist]
  rw [← htot]
  refine hF acc (fun x hx => ?_) (by rwa [htot])
  obtain ⟨i, hi, rfl⟩ := List.mem_iff_getElem.1 hx
  simp only [Vector.length_toList] at hi
  rw [Vector.getElem_toList, hlane i hi]
  exact hnn i hi

/-! ### simd_reduce -/

/-- **C112**, `simd_reduce` for any integers which are not negative and whose sum fits: exactly
that sum in every build. -/
theorem C112_reduce (k : Kind) {F : Vector (BitVec n) w → Res (BitVec n)} (hF : SafeSum k F)
    (c : Cfg) (fuel : Nat) (data : List (BitVec n)) (h0 : 0 < n)
    (hpos : ∀ x ∈ data, 0 ≤ num k.signed x)
    (hfit : Fits k.signed n (data.map (num k.signed)).sum)
    (hw : 0 < w) (hlen : data.length + w < c.usize) (hfuel : data.length / w < fuel) :
    reduceTest w F c fuel data = ok (BitVec.ofInt n (data.map (num k.signed)).sum) := by
  unfold reduceTest
  rw [C03_reduce_foldl c fuel data (Packed.splat 0) (Packed.splat 0)
    (fun (a v : Vector (BitVec n) w) => Vector.zipWith (· + ·) a v) hw hlen hfuel]
  simp only [ok_bind]
  have hz : num k.signed (0 : BitVec n) = 0 := by cases k <;> simp [num, Kind.signed]
  have hs := sum_pad_zero (w := w) (num k.signed) (0 : BitVec n) hw data (.inr hz)
  rw [safeSum_vectors k hF h0, hs]
  · intro x hx
    rcases mem_pad_zero _ hw data x hx with ⟨-, rfl⟩ | h
    · rw [hz]
    · exact hpos x h
  · rwa [hs]

/-- **C112**, any integers: the sum modulo 2^n. In a release build every version of `sum` has this
property (`C71_versions`). -/
theorem C112_reduce_release (signed : Bool) {F : Vector (BitVec n) w → Res (BitVec n)}
    (hF : SumOp signed F) (c : Cfg) (fuel : Nat)
    (data : List (BitVec n)) (hw : 0 < w) (hlen : data.length + w < c.usize)
    (hfuel : data.length / w < fuel) :
    reduceTest w F c fuel data = ok (BitVec.ofInt n (data.map (num signed)).sum) :=
  C71_sum hF c fuel data hw hlen hfuel

/-- **C112**, the test itself: `m` copies of `x`. -/
theorem C112_reduce_copies {F : Vector (BitVec n) w → Res (BitVec n)} (hF : SafeSum .u F)
    (c : Cfg) (fuel m : Nat) (x : BitVec n) (h0 : 0 < n)
    (hfit : m * x.toNat < 2 ^ n) (hw : 0 < w) (hlen : m + w < c.usize) (hfuel : m / w < fuel) :
    reduceTest w F c fuel (List.replicate m x) = ok (BitVec.ofNat n (m * x.toNat)) := by
  have hs : ((List.replicate m x).map (num Kind.u.signed)).sum = (m * x.toNat : ℕ) := by
    rw [List.map_replicate, List.sum_replicate, nsmul_eq_mul]
    push_cast
    rfl
  have := C112_reduce .u hF c fuel (List.replicate m x) h0 (by
      intro y hy
      exact Int.natCast_nonneg _) (by
      rw [hs, fits_iff .u h0]
      have : ((m * x.toNat : ℕ) : ℤ) < 2 ^ n := by exact_mod_cast hfit
      simp only [Kind.lo, Kind.hi]
      omega) hw (by simpa using hlen) (by simpa using hfuel)
  rw [this, hs, BitVec.ofInt_natCast]

example : reduceTest 4 (sumFallback debug64 .u) debug64 99 (List.replicate 129 2#32) = ok 258#32 := by
  decide +kernel

/-! ### Kernels of integers -/

/-- The sum of squared differences. -/
def squaredDistance (signed : Bool) (xs ys : List (BitVec n)) : ℤ :=
  ((xs.zip ys).map fun p => (num signed p.1 - num signed p.2) ^ 2).sum

theorem kernel_bits (signed : Bool) (x y : BitVec n) :
    BitVec.ofInt n ((num signed x - num signed y) ^ 2) = (x - y) * (x - y) := by
  rw [pow_two, BitVec.ofInt_mul, Int.sub_eq_add_neg, BitVec.ofInt_add, BitVec.ofInt_neg, ofInt_num,
    ofInt_num, BitVec.sub_eq_add_neg]

theorem kernel_num (k : Kind) (h0 : 0 < n) {xs ys : List (BitVec n)}
    (hfit : Fits k.signed n (squaredDistance k.signed xs ys)) {p : BitVec n × BitVec n}
    (hp : p ∈ xs.zip ys) :
    num k.signed ((p.1 - p.2) * (p.1 - p.2)) = (num k.signed p.1 - num k.signed p.2) ^ 2 := by
  rw [← kernel_bits k.signed]
  refine num_ofInt_fits k h0 (fits_between k h0 hfit (by positivity) ?_)
  apply List.single_le_sum
  · intro y hy
    obtain ⟨q, -, rfl⟩ := List.mem_map.1 hy
    positivity
  · exact List.mem_map.2 ⟨p, hp, rfl⟩

/-- **C112**, `kernel_definite!`, second part, for any integers: the sum of the squared
differences in every build, if it fits. -/
theorem C112_kernel_reduce (k : Kind) {F : Vector (BitVec n) w → Res (BitVec n)} (hF : SafeSum k F)
    (c : Cfg) (fuel : Nat) (xs ys : List (BitVec n))
    (h : xs.length = ys.length) (hw : 0 < w) (hs : 8 ≤ n) (hu : xs.length + w < c.usize)
    (hvec : w * n < c.usize) (hfuel : xs.length / w < fuel)
    (hfit : Fits k.signed n (squaredDistance k.signed xs ys)) :
    kernelReduce w F c fuel xs ys = ok (BitVec.ofInt n (squaredDistance k.signed xs ys)) := by
  have hle : w * (n / 8) ≤ w * n := Nat.mul_le_mul_left _ (Nat.div_le_self n 8)
  obtain ⟨h1, h2, h3⟩ := rows2_spec c xs ys (Packed.splat (0 : BitVec n) : Vector (BitVec n) w)
    (Packed.splat (0 : BitVec n)) 0 h hw hu
  have hsplat : Vector.zipWith (fun a b => (a, b, ())) (Packed.splat (0 : BitVec n) : Vector (BitVec n) w)
      (Packed.splat (0 : BitVec n) : Vector (BitVec n) w) =
      (Packed.splat ((0 : BitVec n), (0 : BitVec n), ()) : Vector (BitVec n × BitVec n × Unit) w) := by
    ext i hi <;> simp [Packed.splat]
  simp only [hsplat] at h2 h3
  refine (zip_map_reduce_vectors h2 hw h3 (by omega) fuel (kernelVec (w := w) (· - ·) (· * ·))
    (fun t => (t.1 - t.2.1) * (t.1 - t.2.1))
    (by intro v; ext i hi; simp [packRow, LawfulRest.pack, kernelVec])
    (by simp only [Packable.size]; omega) (by simp only [Packable.size]; omega)
    (fun a v => Vector.zipWith (· + ·) a v) _ (by rwa [h1]) _).trans ?_
  have hrow : ∀ t ∈ rows2 xs ys, (t.1, t.2.1) ∈ xs.zip ys := by
    intro t ht
    unfold rows2 at ht
    rw [← List.map_uncurry_zip_eq_zipWith] at ht
    obtain ⟨q, hq, rfl⟩ := List.mem_map.1 ht
    exact hq
  have hz : num k.signed (((0 : BitVec n) - 0) * (0 - 0)) = 0 := by
    rw [← kernel_bits k.signed]
    cases k <;> simp [num, Kind.signed]
  have htot : ((lanes ((calls w (Packed.splat ((0 : BitVec n), (0 : BitVec n), ())) (rows2 xs ys)).map
      (Vector.map fun t => (t.1 - t.2.1) * (t.1 - t.2.1)))).map (num k.signed)).sum =
      squaredDistance k.signed xs ys := by
    rw [lanes_map, List.map_map]
    have := sum_pad_zero (w := w) (fun t : BitVec n × BitVec n × Unit =>
      num k.signed ((t.1 - t.2.1) * (t.1 - t.2.1))) ((0 : BitVec n), (0 : BitVec n), ()) hw
      (rows2 xs ys) (.inr hz)
    refine this.trans ?_
    unfold squaredDistance
    congr 1
    apply List.ext_getElem
    · simp [rows2]
    · intro i i1 i2
      simp only [List.getElem_map, List.getElem_zip, rows2, List.getElem_zipWith]
      simp only [List.length_map, List.length_zip] at i2
      exact kernel_num k (by omega) hfit (p := (xs[i], ys[i])) (by
        rw [List.mem_iff_getElem]
        exact ⟨i, by simpa using i2, by simp⟩)
  rw [safeSum_vectors k hF (by omega), htot]
  · intro x hx
    rw [lanes_map] at hx
    obtain ⟨t, ht, rfl⟩ := List.mem_map.1 hx
    rcases mem_pad_zero _ hw _ t ht with ⟨-, rfl⟩ | ht
    · exact le_of_eq hz.symm
    · rw [kernel_num k (by omega) hfit (hrow t ht)]
      positivity
  · rwa [htot]

/-- **C112**, `kernel_definite!`, first part, for any integers and a buffer of their length. -/
theorem C112_kernel_fill (k : Kind) (c : Cfg) (fuel : Nat) (xs ys buf : List (BitVec n))
    (h : xs.length = ys.length) (hb : buf.length = xs.length) (hw : 0 < w) (hs : 8 ≤ n)
    (hu : xs.length + w < c.usize) (hvec : w * n < c.usize) (hfuel : xs.length / w < fuel)
    (hfit : Fits k.signed n (squaredDistance k.signed xs ys)) :
    kernelFill w k c fuel xs ys buf = ok (BitVec.ofInt n (squaredDistance k.signed xs ys)) := by
  have h83 := C83_squared_differences c fuel xs ys buf (Packed.splat 0 : Vector (BitVec n) w)
    (Packed.splat 0) h hb hw hs hu hvec hfuel
  have e : kernelFill w k c fuel xs ys buf =
      iterSum c k (List.zipWith (fun x y => (x - y) * (x - y)) xs ys) := by
    unfold kernelFill
    have : ∀ {A B C : Type} (x : Res A) (f : A → Res (B × C)) (g : C → Res (BitVec n)) (b : C),
        (do let z ← x; let (_, out) ← f z; ok out) = ok b →
        (do let z ← x; let (_, out) ← f z; g out) = g b := by
      intro A B C x f g b hxb
      cases x with
      | ok z =>
        simp only [ok_bind] at hxb ⊢
        cases hf : f z with
        | ok q => rw [hf] at hxb; simp only [ok_bind] at hxb ⊢; injection hxb with hxb; rw [hxb]
        | panic => rw [hf] at hxb; cases hxb
        | ub => rw [hf] at hxb; cases hxb
        | hang => rw [hf] at hxb; cases hxb
      | panic => cases hxb
      | ub => cases hxb
      | hang => cases hxb
    exact this _ _ _ _ h83
  rw [e]
  unfold iterSum
  have hz : k.value 0#n = 0 := by cases k <;> simp [Kind.value]
  have hval : ∀ p ∈ xs.zip ys, k.value ((p.1 - p.2) * (p.1 - p.2)) =
      (num k.signed p.1 - num k.signed p.2) ^ 2 := by
    intro p hp
    rw [← num_eq]
    exact kernel_num k (by omega) hfit hp
  rw [← List.map_uncurry_zip_eq_zipWith, List.foldlM_map]
  refine (foldlM_check_fits c k (by omega)
    (fun p : BitVec n × BitVec n => (p.1 - p.2) * (p.1 - p.2)) (xs.zip ys) 0#n ?_).trans ?_
  swap
  · unfold squaredDistance
    rw [ofInt_sum_map (xs.zip ys) _ (fun p => (p.1 - p.2) * (p.1 - p.2))
      (fun p => kernel_bits _ _ _)]
    simp
  · intro j _ _
    rw [hz, Int.zero_add, ← fits_iff k (by omega)]
    have e2 : (((xs.zip ys).take j).map fun p => k.value ((p.1 - p.2) * (p.1 - p.2))) =
        ((xs.zip ys).take j).map fun p => (num k.signed p.1 - num k.signed p.2) ^ 2 :=
      List.map_congr_left fun p hp => hval p (List.mem_of_mem_take hp)
    rw [e2]
    refine fits_between k (by omega) hfit ?_ ?_
    · apply List.sum_nonneg
      intro y hy
      obtain ⟨q, -, rfl⟩ := List.mem_map.1 hy
      positivity
    · unfold squaredDistance
      conv_rhs => rw [← List.take_append_drop j (xs.zip ys), List.map_append, List.sum_append]
      have : 0 ≤ (((xs.zip ys).drop j).map fun p => (num k.signed p.1 - num k.signed p.2) ^ 2).sum := by
        apply List.sum_nonneg
        intro y hy
        obtain ⟨q, -, rfl⟩ := List.mem_map.1 hy
        positivity
      omega

/-- The test: three and one, five times, in vectors of two; and with signed bytes. -/
example : kernelFill 2 .u debug64 9 (List.replicate 5 3#8) (List.replicate 5 1#8)
    (List.replicate 5 0#8) = ok 20#8 ∧
    kernelReduce 2 (sumFallback debug64 .i) debug64 9 (List.replicate 5 3#8) (List.replicate 5 1#8) = ok 20#8 := by
  decide +kernel

/-- Differences which are negative as integers wrap and their squares do not. -/
example : kernelReduce 2 (sumFallback debug64 .u) debug64 9 [1#8, 2, 3] [3#8, 2, 1] = ok 8#8 := by decide +kernel

/-! ### Kernels of floats -/

/-- The integer which a float is. -/
def intOf (x : BitVec n) : ℤ :=
  match ieee x with
  | .fin a => ⌊a⌋
  | _ => 0

theorem intOf_fin {x : BitVec n} {m : ℤ} (h : ieee x = .fin (m : ℚ)) : intOf x = m := by
  unfold intOf
  rw [h]
  simp

theorem kernel_int (hn : n = 32 ∨ n = 64) {x y : BitVec n} {a b : ℤ} (hx : ieee x = .fin a)
    (hy : ieee y = .fin b) (h : (a - b) ^ 2 ≤ 2 ^ (mantBits n + 1)) :
    ieee (fmul (fsub x y) (fsub x y)) = .fin (((a - b) ^ 2 : ℤ) : ℚ) := by
  have h1 : ((a - b) * (a - b)).natAbs ≤ 2 ^ (mantBits n + 1) := by
    rw [← pow_two]
    have := abs_of_nonneg (sq_nonneg (a - b))
    zify
    rw [this]
    exact h
  have h2 : (a - b).natAbs ≤ 2 ^ (mantBits n + 1) := by
    refine le_trans ?_ h1
    rw [Int.natAbs_mul]
    exact Nat.le_mul_self _
  rw [fmul_int hn (fsub_int hn hx hy h2) (fsub_int hn hx hy h2) h1, pow_two]

/-- The scalar loop over floats of integral value. -/
theorem foldl_fadd_int {α : Type} (hn : n = 32 ∨ n = 64) (g : α → BitVec n) (z : α → ℤ) (l : List α)
    (hz : ∀ x ∈ l, ieee (g x) = .fin (z x)) (acc : BitVec n) (k : ℤ) (hk : ieee acc = .fin k)
    (hb : k.natAbs + (l.map fun x => (z x).natAbs).sum ≤ 2 ^ (mantBits n + 1)) :
    ieee (l.foldl (fun a x => fadd a (g x)) acc) = .fin ((k + (l.map z).sum : ℤ) : ℚ) := by
  induction l generalizing acc k with
  | nil => simpa using hk
  | cons x l ih =>
    simp only [List.map_cons, List.sum_cons, List.foldl_cons] at hb ⊢
    rw [← add_assoc]
    exact ih (fun y hy => hz y (by simp [hy])) _ (k + z x)
      (fadd_int hn hk (hz x (by simp)) (by omega)) (by omega)

/-- The vectors which `kernel_relative!` adds. -/
theorem kernelFloat_run (hn : n = 32 ∨ n = 64) (sum : Vector (BitVec n) w → Res (BitVec n)) (c : Cfg)
    (fuel : Nat) (xs ys : List (BitVec n)) (h : xs.length = ys.length) (hw : 0 < w)
    (hu : xs.length + w < c.usize) (hvec : w * n < c.usize) (hfuel : xs.length / w < fuel) :
    kernelFloat w sum c fuel xs ys = sum
      (((calls w (Packed.splat (fZero n false, fZero n false, ())) (rows2 xs ys)).map
        (Vector.map fun t => fmul (fsub t.1 t.2.1) (fsub t.1 t.2.1))).foldl (Vector.zipWith fadd)
        (Packed.splat (fZero n false))) := by
  have hle : w * (n / 8) ≤ w * n := Nat.mul_le_mul_left _ (Nat.div_le_self n 8)
  obtain ⟨h1, h2, h3⟩ := rows2_spec c xs ys (Packed.splat (fZero n false) : Vector (BitVec n) w)
    (Packed.splat (fZero n false)) 0 h hw hu
  have hsplat : Vector.zipWith (fun a b => (a, b, ())) (Packed.splat (fZero n false) : Vector (BitVec n) w)
      (Packed.splat (fZero n false) : Vector (BitVec n) w) =
      (Packed.splat (fZero n false, fZero n false, ()) : Vector (BitVec n × BitVec n × Unit) w) := by
    ext i hi <;> simp [Packed.splat]
  simp only [hsplat] at h2 h3
  exact zip_map_reduce_vectors h2 hw h3 (by omega) fuel (kernelVec (w := w) fsub fmul)
    (fun t => fmul (fsub t.1 t.2.1) (fsub t.1 t.2.1))
    (by intro v; ext i hi; simp [packRow, LawfulRest.pack, kernelVec])
    (by rcases hn with rfl | rfl <;> decide) (by simp only [Packable.size]; omega)
    (fun a v => Vector.zipWith fadd a v) _ (by rwa [h1]) _

/-- **C112**, `kernel_relative!` for any floats of integral value: SIMD and scalar give exactly
the sum of the squared differences, if it is at most 2^24 (`f32`) or 2^53 (`f64`). -/
theorem C112_kernel_float (hn : n = 32 ∨ n = 64)
    {sum : (BitVec n → BitVec n → BitVec n) → Vector (BitVec n) w → Res (BitVec n)} {p : Plan}
    (hp : Follows sum (fZero n false) p) (hl : p.lanes = List.range w) (c : Cfg) (fuel : Nat)
    (xs ys : List (BitVec n)) (h : xs.length = ys.length) (hw : 0 < w)
    (hu : xs.length + w < c.usize) (hvec : w * n < c.usize) (hfuel : xs.length / w < fuel)
    (z : BitVec n → ℤ) (hx : ∀ x ∈ xs, ieee x = .fin (z x)) (hy : ∀ y ∈ ys, ieee y = .fin (z y))
    (hb : ((xs.zip ys).map fun t => (z t.1 - z t.2) ^ 2).sum ≤ 2 ^ (if n = 32 then 24 else 53)) :
    ∃ r, kernelFloat w (sum fadd) c fuel xs ys = ok r ∧
      ieee r = .fin (((xs.zip ys).map fun t => (z t.1 - z t.2) ^ 2).sum : ℤ) ∧
      ieee (kernelFloatScalar xs ys) = .fin (((xs.zip ys).map fun t => (z t.1 - z t.2) ^ 2).sum : ℤ) := by
  have hm : (if n = 32 then 24 else 53) = mantBits n + 1 := by
    rcases hn with rfl | rfl <;> rfl
  have hker : ∀ t ∈ xs.zip ys, ieee (fmul (fsub t.1 t.2) (fsub t.1 t.2)) =
      .fin (((z t.1 - z t.2) ^ 2 : ℤ) : ℚ) := by
    intro t ht
    refine kernel_int hn (hx _ (List.of_mem_zip ht).1) (hy _ (List.of_mem_zip ht).2) ?_
    rw [← hm]
    refine le_trans ?_ hb
    apply List.single_le_sum
    · intro y hy
      obtain ⟨q, -, rfl⟩ := List.mem_map.1 hy
      positivity
    · exact List.mem_map.2 ⟨t, ht, rfl⟩
  have h0 : ieee (fZero n false) = .fin ((0 : ℤ) : ℚ) := by simpa using (fzero_facts hn false).2
  have habs : ∀ l : List (BitVec n × BitVec n), ((l.map fun t => ((z t.1 - z t.2) ^ 2).natAbs).sum : ℕ) =
      (l.map fun t => (z t.1 - z t.2) ^ 2).sum := by
    intro l
    induction l with
    | nil => simp
    | cons t l ih =>
      simp only [List.map_cons, List.sum_cons]
      push_cast
      rw [← ih, abs_of_nonneg (sq_nonneg _)]
      push_cast
      rfl
  have hnat : ((xs.zip ys).map fun t => ((z t.1 - z t.2) ^ 2).natAbs).sum ≤
      2 ^ (if n = 32 then 24 else 53) := by
    have := habs (xs.zip ys) ▸ hb
    exact_mod_cast this
  have hrun := kernelFloat_run hn (sum fadd) c fuel xs ys h hw hu hvec hfuel
  generalize hg : (fun t : BitVec n × BitVec n × Unit =>
    fmul (fsub t.1 t.2.1) (fsub t.1 t.2.1)) = g at hrun
  have hrow : ∀ t ∈ rows2 xs ys, (t.1, t.2.1) ∈ xs.zip ys := by
    intro t ht
    unfold rows2 at ht
    rw [← List.map_uncurry_zip_eq_zipWith] at ht
    obtain ⟨q, hq, rfl⟩ := List.mem_map.1 ht
    exact hq
  have hg0 : ieee (g (fZero n false, fZero n false, ())) = .fin ((0 : ℤ) : ℚ) := by
    have := kernel_int hn h0 h0 (by rw [sub_self]; positivity)
    rw [sub_self, zero_pow (by decide)] at this
    rw [← hg, this]
  have hval : ∀ t ∈ rows2 xs ys, ieee (g t) = .fin (((z t.1 - z t.2.1) ^ 2 : ℤ) : ℚ) :=
    fun t ht => by
      have := hker (t.1, t.2.1) (hrow t ht)
      simp only at this
      rw [← hg, this]
  have hsum : ∀ {M : Type} [AddMonoid M] (f : ℤ → M), f 0 = 0 →
      ((lanes ((calls w (Packed.splat (fZero n false, fZero n false, ())) (rows2 xs ys)).map
        (Vector.map g))).map fun x => f (intOf x)).sum =
      ((xs.zip ys).map fun t => f ((z t.1 - z t.2) ^ 2)).sum := by
    intro M _ f hf
    rw [lanes_map, List.map_map]
    have := sum_pad_zero (w := w) (fun t => f (intOf (g t))) (fZero n false, fZero n false, ()) hw
      (rows2 xs ys) (.inr (by rw [intOf_fin hg0, hf]))
    refine this.trans ?_
    rw [List.map_congr_left (g := fun t : BitVec n × BitVec n × Unit => f ((z t.1 - z t.2.1) ^ 2))
      fun t ht => by rw [intOf_fin (hval t ht)]]
    congr 1
    apply List.ext_getElem <;> simp [rows2]
  obtain ⟨r, r1, r2⟩ := C111_vectors_int hn hp hl intOf
    ((calls w (Packed.splat (fZero n false, fZero n false, ())) (rows2 xs ys)).map (Vector.map g))
    (by
      intro x hx
      rw [lanes_map] at hx
      obtain ⟨t, ht, rfl⟩ := List.mem_map.1 hx
      rcases mem_pad_zero _ hw _ t ht with ⟨-, rfl⟩ | ht
      · rw [intOf_fin hg0]; exact hg0
      · rw [intOf_fin (hval t ht)]; exact hval t ht)
    (by
      rw [hsum (fun m => m.natAbs) rfl]
      exact hnat)
  refine ⟨r, hrun.trans r1, ?_, ?_⟩
  · rw [r2, hsum (fun m => m) rfl]
  · unfold kernelFloatScalar
    rw [← List.map_uncurry_zip_eq_zipWith, List.foldl_map]
    have := foldl_fadd_int hn (fun t : BitVec n × BitVec n => fmul (fsub t.1 t.2) (fsub t.1 t.2))
      (fun t => (z t.1 - z t.2) ^ 2) (xs.zip ys) hker (fZero n false) 0 h0 (by
        rw [← hm, Int.natAbs_zero, Nat.zero_add]
        exact hnat)
    rw [zero_add] at this
    exact this

/-- The test: one and three, five times, in vectors of two. -/
example : kernelFloat 2 (sumFallbackF fadd (fZero 32 false)) debug64 9
    (List.replicate 5 0x3F800000#32) (List.replicate 5 0x40400000#32) = ok 0x41A00000#32 ∧
    kernelFloatScalar (List.replicate 5 0x3F800000#32) (List.replicate 5 0x40400000#32) =
      0x41A00000#32 := by decide +kernel

/-- **C112**, `kernel_relative!` for any floats whose terms do not overflow: the results of SIMD and
scalar differ by at most the rounding errors of the additions. -/
theorem C112_kernel_error (hn : n = 32 ∨ n = 64)
    {sum : (BitVec n → BitVec n → BitVec n) → Vector (BitVec n) w → Res (BitVec n)} {p : Plan}
    (hp : Follows sum (fZero n false) p) (hl : p.lanes = List.range w) (c : Cfg) (fuel : Nat)
    (xs ys : List (BitVec n)) (h : xs.length = ys.length) (hw : 0 < w)
    (hu : xs.length + w < c.usize) (hvec : w * n < c.usize) (hfuel : xs.length / w < fuel)
    (hq : ∀ t ∈ xs.zip ys, (ieee (fmul (fsub t.1 t.2) (fsub t.1 t.2))).Finite) :
    ∃ r, kernelFloat w (sum fadd) c fuel xs ys = ok r ∧
      ∀ s t, ieee r = .fin s → ieee (kernelFloatScalar xs ys) = .fin t →
        |(s - t : ℝ)| ≤ ((1 + fEps n) ^ ((xs.length + w - 1) / w + p.depth) +
          (1 + fEps n) ^ xs.length - 2) *
          ((xs.zip ys).map fun t => |(ieee (fmul (fsub t.1 t.2) (fsub t.1 t.2))).real|).sum := by
  have hrun := kernelFloat_run hn (sum fadd) c fuel xs ys h hw hu hvec hfuel
  have hscalar : kernelFloatScalar xs ys = (xs.zip ys).foldl
      (fun a t => fadd a (fmul (fsub t.1 t.2) (fsub t.1 t.2))) (fZero n false) := by
    unfold kernelFloatScalar
    rw [← List.map_uncurry_zip_eq_zipWith, List.foldl_map]
    rfl
  have h0 : ieee (fmul (fsub (fZero n false) (fZero n false)) (fsub (fZero n false) (fZero n false))) =
      .fin 0 := by
    have hz : ieee (fZero n false) = .fin ((0 : ℤ) : ℚ) := by simpa using (fzero_facts hn false).2
    simpa using kernel_int hn hz hz (by rw [sub_self]; positivity)
  rw [hscalar]
  generalize hg : (fun t : BitVec n × BitVec n => fmul (fsub t.1 t.2) (fsub t.1 t.2)) = g
  have hg' : ∀ x y, fmul (fsub x y) (fsub x y) = g (x, y) := fun x y => by rw [← hg]
  simp only [hg'] at hrun hq h0 ⊢
  have hrows : rows2 xs ys = (xs.zip ys).map fun t => (t.1, t.2, ()) := by
    unfold rows2
    rw [← List.map_uncurry_zip_eq_zipWith]
    rfl
  obtain ⟨b, h1, h2, -⟩ := calls_sumsTo hn hp hl hw (rows2 xs ys) (fZero n false, fZero n false, ())
    (fun t => g (t.1, t.2.1)) (by
      intro t ht
      rw [hrows] at ht
      obtain ⟨q, hq', rfl⟩ := List.mem_map.1 ht
      exact hq q hq') (.inr h0)
  refine ⟨b, hrun.trans h1, fun s t hs ht => ?_⟩
  have h3 := h2 s hs
  have h4 := (C109_scalar hn g (xs.zip ys) hq).1 t ht
  have hlen : (xs.zip ys).length = xs.length := by simp [h]
  rw [hrows] at h3
  simp only [List.map_map, List.length_map, Function.comp_def, hlen] at h3 h4
  generalize ((xs.zip ys).map fun x => (ieee (g x)).real).sum = S at h3 h4
  have e1 : (s - t : ℝ) = (s - S) - (t - S) := by ring
  rw [e1]
  refine (abs_sub _ _).trans ?_
  linarith

end Faster
