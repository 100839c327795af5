import Verif.Props.LaneTotals
import Verif.Props.Checked
/-
C166: products of slices with software vectors, whose operators are checked in debug builds.
-/
namespace Faster
open Res

variable {n w : Nat} {c : Cfg} {k : Kind}

/-- `slice.simd_iter(splat(1)).simd_reduce(splat(1), |acc, v| acc * v).product()` on targets without vector
instructions: `*` is that of `impl_ops!` (src/arch/unknown/vecs.rs:182-199), `product` multiplies scalars
(src/vecs.rs:175-181). -/
def sliceProductSoft (c : Cfg) (fuel : Nat) (k : Kind) (w : Nat) (data : List (BitVec n)) : Res (BitVec n) := do
  let (_, acc, _) ← simdReduce c fuel (simdIter data (Packed.splat 1 : Vector (BitVec n) w)) (Packed.splat 1) ()
    fun _ acc v => do
      let u ← Soft.binop (mulInt c k) 0 acc v
      ok (u, ())
  Packed.product 1 (mulInt c k) acc

theorem mulInt_total (a b : BitVec n) : (∃ y, mulInt c k a b = ok y) ∨ mulInt c k a b = Res.panic := by
  unfold mulInt overflowCheck
  split
  · exact .inl ⟨_, rfl⟩
  · split
    · exact .inr rfl
    · exact .inl ⟨_, rfl⟩

/-- What `*` returns are the bits of the wrapped product; in debug builds it is the exact product. -/
theorem mulInt_value (h0 : 0 < n) {a b y : BitVec n} (h : mulInt c k a b = ok y) :
    y = a * b ∧ (c.debug = true → k.value y = k.value a * k.value b) := by
  unfold mulInt overflowCheck at h
  split at h
  · rename_i hb
    cases h
    refine ⟨rfl, fun _ => ?_⟩
    have e : a * b = BitVec.ofInt n (k.value a * k.value b) := by
      rw [BitVec.ofInt_mul, Kind.ofInt_value, Kind.ofInt_value]
    rw [e, Kind.value_ofInt _ h0 hb]
  · split at h
    · cases h
    · rename_i hd
      cases h
      exact ⟨rfl, fun h => absurd h hd⟩

/-- Either all lanes can be multiplied, or `*` panics, in a debug build. -/
theorem softMul_cases (a b : Vector (BitVec n) w) :
    ((∀ i (hi : i < w), mulInt c k a[i] b[i] = ok (a[i] * b[i])) ∧
      Soft.binop (mulInt c k) 0 a b = ok (a.zipWith (· * ·) b)) ∨
    (c.debug = true ∧ (∃ i, ∃ hi : i < w, mulInt c k a[i] b[i] = Res.panic) ∧
      Soft.binop (mulInt c k) 0 a b = Res.panic) := by
  have hl := Lifts2.binop (w := w) (0 : BitVec n) (mulInt_total (c := c) (k := k))
  by_cases h : ∃ i, ∃ hi : i < w, mulInt c k a[i] b[i] = Res.panic
  · obtain ⟨i, hi, e⟩ := h
    refine .inr ⟨?_, ⟨i, hi, e⟩, hl.panics a b i hi e⟩
    unfold mulInt overflowCheck at e
    split at e
    · cases e
    · split at e
      · assumption
      · cases e
  · have hall : ∀ i (hi : i < w), mulInt c k a[i] b[i] = ok (a[i] * b[i]) := by
      intro i hi
      have h1 : mulInt c k a[i] b[i] ≠ Res.panic := fun e => h ⟨i, hi, e⟩
      unfold mulInt overflowCheck at h1 ⊢
      split
      · rfl
      · rename_i hb
        rw [if_neg hb] at h1
        split
        · rename_i hd; rw [if_pos hd] at h1; exact absurd rfl h1
        · rfl
    exact .inl ⟨hall, hl.lanes a b _ fun i hi => by rw [hall i hi]; simp⟩

theorem exact_mulZip (h0 : 0 < n) (hd : c.debug = true) {a b : Vector (BitVec n) w}
    (h : ∀ i (hi : i < w), mulInt c k a[i] b[i] = ok (a[i] * b[i])) :
    ((a.zipWith (· * ·) b).toList.map k.value).prod =
      (a.toList.map k.value).prod * (b.toList.map k.value).prod := by
  have key : ∀ xs ys : List (BitVec n), xs.length = ys.length →
      (∀ i (h1 : i < xs.length) (h2 : i < ys.length), k.value (xs[i] * ys[i]) = k.value xs[i] * k.value ys[i]) →
      ((List.zipWith (· * ·) xs ys).map k.value).prod = (xs.map k.value).prod * (ys.map k.value).prod := by
    intro xs
    induction xs with
    | nil => intro ys hl _; cases ys with
      | nil => simp
      | cons y ys => simp at hl
    | cons x xs ih =>
      intro ys hl hh
      cases ys with
      | nil => simp at hl
      | cons y ys =>
        have i1 := ih ys (by simpa using hl) fun i h1 h2 => by
          have := hh (i + 1) (by simpa using h1) (by simpa using h2)
          simpa using this
        have i2 := hh 0 (by simp) (by simp)
        simp only [List.getElem_cons_zero] at i2
        simp only [List.zipWith_cons_cons, List.map_cons, List.prod_cons]
        rw [i1, i2, Int.mul_assoc, Int.mul_assoc]
        congr 1
        rw [Int.mul_left_comm]
  have e : (a.zipWith (· * ·) b).toList = List.zipWith (· * ·) a.toList b.toList := by
    apply List.ext_getElem <;> simp
  rw [e]
  refine key _ _ (by simp) fun i h1 h2 => ?_
  simp only [Vector.length_toList] at h1
  have := (mulInt_value h0 (h i h1)).2 hd
  simpa using this

/-- The accumulators of software vectors: either those of native vectors, with exact products in debug builds, or a
panic in a debug build. -/
theorem softMul_fold (h0 : 0 < n) (vs : List (Vector (BitVec n) w)) : ∀ start : Vector (BitVec n) w,
    (vs.foldlM (fun (p : Vector (BitVec n) w × Unit) v => (do
        let u ← Soft.binop (mulInt c k) 0 p.1 v
        ok (u, ()) : Res (Vector (BitVec n) w × Unit))) (start, ()) =
      ok (vs.foldl (fun (acc : Vector (BitVec n) w) v => acc.zipWith (· * ·) v) start, ()) ∧
      (c.debug = true →
        ((vs.foldl (fun (acc : Vector (BitVec n) w) v => acc.zipWith (· * ·) v) start).toList.map k.value).prod =
          (start.toList.map k.value).prod * ((lanes vs).map k.value).prod)) ∨
    (c.debug = true ∧ vs.foldlM (fun (p : Vector (BitVec n) w × Unit) v => (do
        let u ← Soft.binop (mulInt c k) 0 p.1 v
        ok (u, ()) : Res (Vector (BitVec n) w × Unit))) (start, ()) = Res.panic) := by
  induction vs with
  | nil => intro start; exact .inl ⟨rfl, fun _ => by simp⟩
  | cons v vs ih =>
    intro start
    rw [List.foldlM_cons, List.foldl_cons]
    rcases softMul_cases (c := c) (k := k) start v with ⟨hl, h⟩ | ⟨hd, -, h⟩
    · simp only [h, ok_bind]
      rcases ih (start.zipWith (· * ·) v) with ⟨i1, i2⟩ | i
      · refine .inl ⟨i1, fun hd => ?_⟩
        rw [i2 hd, exact_mulZip h0 hd hl, lanes_cons, List.map_append, List.prod_append, Int.mul_assoc]
      · exact .inr i
    · exact .inr ⟨hd, by simp only [h]; rfl⟩

theorem product_list (acc : Vector (BitVec n) w) :
    Packed.product 1 (mulInt c k) acc = acc.toList.foldlM (mulInt c k) 1 := by
  rw [Packed.product, scalarReduceLoop_ok _ _ w 0 1 (by omega), List.drop_zero]

/-- **C166**, all builds: software vectors return what native vectors with as many lanes return, or a debug build
panics. -/
theorem C166_native (h0 : 0 < n) (hw : 0 < w) (fuel : Nat) (data : List (BitVec n))
    (hlen : data.length + w < c.usize) (hfuel : data.length / w < fuel) :
    sliceProductSoft c fuel k w data = sliceProduct c fuel k w data ∨
      (c.debug = true ∧ sliceProductSoft c fuel k w data = Res.panic) := by
  have h3 := C03_reduce_foldl c fuel data (Packed.splat 1) (Packed.splat 1)
    (fun (acc v : Vector (BitVec n) w) => acc.zipWith (· * ·) v) hw hlen hfuel
  unfold sliceProduct sliceProductSoft
  rw [h3, C03_reduce_fold c fuel data (Packed.splat 1) (Packed.splat 1) () _ hw hlen hfuel]
  simp only [bind_assoc, ok_bind]
  rcases softMul_fold (c := c) (k := k) h0 (calls w (Packed.splat 1) data) (Packed.splat 1) with ⟨h, -⟩ | ⟨hd, h⟩
  · left
    exact (congrArg (fun r => r >>= fun p => Packed.product 1 (mulInt c k) p.1) h).trans rfl
  · exact .inr ⟨hd, (congrArg (fun r => r >>= fun p => Packed.product 1 (mulInt c k) p.1) h).trans rfl⟩

/-- **C166**, release builds: the product modulo `2^n`, for every number of lanes. -/
theorem C166_release (hc : c.debug = false) (h0 : 0 < n) (hw : 0 < w) (fuel : Nat) (data : List (BitVec n))
    (hlen : data.length + w < c.usize) (hfuel : data.length / w < fuel) :
    sliceProductSoft c fuel k w data = ok (data.foldl (· * ·) 1) := by
  rcases C166_native (c := c) (k := k) h0 hw fuel data hlen hfuel with h | ⟨hd, -⟩
  · rw [h]; exact (C160_release hc hw fuel data hlen hfuel).1
  · simp [hc] at hd

theorem value_one (hk : k ≠ .f) (h0 : 1 < n) : k.value (1 : BitVec n) = 1 := by
  have h2 : 2 ^ 1 < 2 ^ n := Nat.pow_lt_pow_right (by omega) h0
  have : (1 : BitVec n).toNat = 1 := by
    show 1 % 2 ^ n = 1
    exact Nat.mod_eq_of_lt (by omega)
  cases k with
  | u => simp only [Kind.value, this]; rfl
  | i =>
    simp only [Kind.value]
    rw [BitVec.toInt_eq_toNat_of_lt (by rw [this]; omega), this]; rfl
  | f => exact absurd rfl hk

/-- The numbers and the factors of all lanes of the pass. -/
theorem ones_lanes {M : Type} [CommMonoid M] (f : BitVec n → M) (h1 : f 1 = 1) (hw : 0 < w)
    (data : List (BitVec n)) :
    ((lanes (calls w (Packed.splat 1) data)).map f).prod = (data.map f).prod ∧
    ((Packed.splat 1 : Vector (BitVec n) w).toList.map f).prod = 1 := by
  have hp : (lanes (calls w (Packed.splat 1) data)).Perm (data ++ padding w (Packed.splat 1) data) := by
    rw [List.perm_iff_count]
    intro x
    rw [lanes_calls_count hw, List.count_append]
  have hr (m : Nat) : ((List.replicate m (1 : BitVec n)).map f).prod = 1 := by
    rw [List.map_replicate, h1]; simp
  have hpad : ∃ m, padding w (Packed.splat 1) data = List.replicate m (1 : BitVec n) := by
    unfold padding
    split
    · exact ⟨0, rfl⟩
    · exact ⟨_, by rw [Packed.splat, Vector.toList_replicate, List.take_replicate]⟩
  obtain ⟨m, hm⟩ := hpad
  constructor
  · rw [(hp.map _).prod_eq, List.map_append, List.prod_append, hm, hr m, mul_one]
  · rw [Packed.splat, Vector.toList_replicate, hr]

theorem mulInt_fold_value (h0 : 0 < n) (hd : c.debug = true) (l : List (BitVec n)) : ∀ a r : BitVec n,
    l.foldlM (mulInt c k) a = ok r → k.value r = k.value a * (l.map k.value).prod := by
  induction l with
  | nil => intro a r h; cases h; simp
  | cons x l ih =>
    intro a r h
    rw [List.foldlM_cons] at h
    rcases mulInt_total (c := c) (k := k) a x with ⟨y, hy⟩ | hy
    · rw [hy] at h
      rw [ih y r h, (mulInt_value h0 hy).2 hd, List.map_cons, List.prod_cons, Int.mul_assoc]
    · rw [hy] at h; cases h

/-- **C166**, debug builds: the exact product, or a panic. No product is ever wrong. -/
theorem C166_debug (hd : c.debug = true) (hk : k ≠ .f) (h0 : 1 < n) (hw : 0 < w) (fuel : Nat)
    (data : List (BitVec n)) (hlen : data.length + w < c.usize) (hfuel : data.length / w < fuel) :
    (∃ r, sliceProductSoft c fuel k w data = ok r ∧ k.value r = (data.map k.value).prod) ∨
      sliceProductSoft c fuel k w data = Res.panic := by
  obtain ⟨e1, e2⟩ := ones_lanes (w := w) k.value (value_one hk h0) hw data
  unfold sliceProductSoft
  rw [C03_reduce_fold c fuel data (Packed.splat 1) (Packed.splat 1) () _ hw hlen hfuel]
  simp only [bind_assoc, ok_bind]
  rcases softMul_fold (c := c) (k := k) (by omega) (calls w (Packed.splat 1) data) (Packed.splat 1) with
    ⟨h, ht⟩ | ⟨-, h⟩
  · have ht := ht hd
    rw [e1, e2, Int.one_mul] at ht
    have e := (congrArg (fun r => r >>= fun p => Packed.product 1 (mulInt c k) p.1) h).trans rfl
    generalize hacc : (calls w (Packed.splat 1) data).foldl
      (fun (acc : Vector (BitVec n) w) v => acc.zipWith (· * ·) v) (Packed.splat 1) = acc at *
    have e' : _ = acc.toList.foldlM (mulInt c k) 1 := e.trans (product_list acc)
    rcases mulInt_fold (c := c) (k := k) acc.toList 1 with h1 | ⟨-, h1⟩
    · left
      refine ⟨_, e'.trans h1, ?_⟩
      rw [mulInt_fold_value (by omega) hd _ _ _ h1, ht, value_one hk h0, Int.one_mul]
    · exact .inr (e'.trans h1)
  · exact .inr ((congrArg (fun r => r >>= fun p => Packed.product 1 (mulInt c k) p.1) h).trans rfl)

/-! ### Products which fit -/

theorem factor_le_prod {x : BitVec n} {l : List (BitVec n)} (h : x ∈ l) : factor k x ≤ (l.map (factor k)).prod := by
  induction l with
  | nil => cases h
  | cons y l ih =>
    rw [List.map_cons, List.prod_cons]
    rcases List.mem_cons.1 h with rfl | h
    · exact Nat.le_mul_of_pos_right _ (factors_pos l)
    · exact Nat.le_trans (ih h) (Nat.le_mul_of_pos_left _ (factor_pos y))

theorem softMul_fits (hk : k ≠ .f) (h0 : 0 < n) (vs : List (Vector (BitVec n) w)) :
    ∀ acc : Vector (BitVec n) w,
    ((((acc.toList.map (factor k)).prod * ((lanes vs).map (factor k)).prod : Nat)) : Int) ≤ k.hi n →
    vs.foldlM (fun (p : Vector (BitVec n) w × Unit) v => (do
        let u ← Soft.binop (mulInt c k) 0 p.1 v
        ok (u, ()) : Res (Vector (BitVec n) w × Unit))) (acc, ()) =
      ok (vs.foldl (fun (acc : Vector (BitVec n) w) v => acc.zipWith (· * ·) v) acc, ()) := by
  induction vs with
  | nil => intro acc _; rfl
  | cons v vs ih =>
    intro acc hB
    rw [lanes_cons, List.map_append, List.prod_append, ← Nat.mul_assoc] at hB
    have pv := factors_pos (k := k) (lanes vs)
    have e : (acc.zipWith (· * ·) v).toList = List.zipWith (· * ·) acc.toList v.toList := by
      apply List.ext_getElem <;> simp
    have hle := Nat.le_mul_of_pos_right ((acc.toList.map (factor k)).prod * (v.toList.map (factor k)).prod) pv
    obtain ⟨-, z2⟩ := product_zip hk h0 acc.toList v.toList (by simp) (by omega)
    rw [← e] at z2
    have hle' := Nat.mul_le_mul_right ((lanes vs).map (factor k)).prod z2
    rw [List.foldlM_cons, List.foldl_cons]
    rcases softMul_cases (c := c) (k := k) acc v with ⟨-, h⟩ | ⟨-, ⟨i, hi, hp⟩, -⟩
    · simp only [h, ok_bind]
      exact ih (acc.zipWith (· * ·) v) (by omega)
    · exfalso
      have m1 := factor_le_prod (k := k) (x := acc[i]) (l := acc.toList) (by simp)
      have m2 := factor_le_prod (k := k) (x := v[i]) (l := v.toList) (by simp)
      have m3 := Nat.mul_le_mul m1 m2
      obtain ⟨-, -, j3⟩ := factor_mul hk h0 (a := acc[i]) (b := v[i]) (by omega)
      unfold mulInt overflowCheck at hp
      rw [if_pos j3] at hp
      cases hp

/-- **C166**: in both builds the exact product, if the product of the sizes of all factors, those which are zero
left out, fits. -/
theorem C166_fits (hk : k ≠ .f) (h0 : 1 < n) (hw : 0 < w) (fuel : Nat) (data : List (BitVec n))
    (hB : (((data.map (factor k)).prod : Nat) : Int) ≤ k.hi n) (hlen : data.length + w < c.usize)
    (hfuel : data.length / w < fuel) :
    ∃ r, sliceProductSoft c fuel k w data = ok r ∧ k.value r = (data.map k.value).prod := by
  have hf1 : factor k (1 : BitVec n) = 1 := by unfold factor; rw [value_one hk h0]; rfl
  obtain ⟨e1, e2⟩ := ones_lanes (w := w) (factor k) hf1 hw data
  have h := softMul_fits (c := c) hk (by omega) (calls w (Packed.splat 1) data) (Packed.splat 1)
    (by rw [e1, e2, Nat.one_mul]; exact hB)
  obtain ⟨r, h1, h2⟩ := C160_partial (c := c) hk h0 hw fuel data hB hlen hfuel
  refine ⟨r, ?_, h2⟩
  rw [← h1, (product_acc hw fuel data hlen hfuel).1, ← product_list]
  unfold sliceProductSoft
  rw [C03_reduce_fold c fuel data (Packed.splat 1) (Packed.splat 1) () _ hw hlen hfuel]
  simp only [bind_assoc, ok_bind]
  exact (congrArg (fun r => r >>= fun p => Packed.product 1 (mulInt c k) p.1) h).trans rfl

/-- **C166**: for unsigned slices without zeros a debug build returns exactly if the product fits, as a loop over
the slice does. -/
theorem C166_iff (hd : c.debug = true) (h0 : 1 < n) (hw : 0 < w) (fuel : Nat) (data : List (BitVec n))
    (hz : (0 : BitVec n) ∉ data) (hlen : data.length + w < c.usize) (hfuel : data.length / w < fuel) :
    ((∃ r, sliceProductSoft c fuel .u w data = ok r) ↔ (data.map (·.toNat)).prod < 2 ^ n) ∧
    ((∃ r, data.foldlM (mulInt c .u) 1 = ok r) ↔ (data.map (·.toNat)).prod < 2 ^ n) := by
  have hk : Kind.u ≠ .f := by decide
  have ef : ∀ l : List (BitVec n), (0 : BitVec n) ∉ l →
      (l.map (factor .u)).prod = (l.map (·.toNat)).prod ∧
      (l.map (Kind.u.value)).prod = (((l.map (·.toNat)).prod : Nat) : Int) := by
    intro l
    induction l with
    | nil => intro _; simp
    | cons x l ih =>
      intro hz
      simp only [List.mem_cons, not_or] at hz
      obtain ⟨i1, i2⟩ := ih hz.2
      simp only [List.map_cons, List.prod_cons]
      rw [i1, i2]
      have hx : x.toNat ≠ 0 := fun h => hz.1 (BitVec.eq_of_toNat_eq (by simpa using h.symm))
      constructor
      · congr 1
        simp only [factor, Kind.value]; omega
      · simp [Kind.value]
  obtain ⟨f1, f2⟩ := ef data hz
  have hhi : Kind.u.hi n = 2 ^ n - 1 := rfl
  have hf1 : factor .u (1 : BitVec n) = 1 := by unfold factor; rw [value_one hk h0]; rfl
  have back (r : BitVec n) (h : Kind.u.value r = (data.map Kind.u.value).prod) :
      (data.map (·.toNat)).prod < 2 ^ n := by
    rw [f2] at h
    simp only [Kind.value] at h
    have := r.isLt
    omega
  have fit (h : (data.map (·.toNat)).prod < 2 ^ n) : (((data.map (factor .u)).prod : Nat) : Int) ≤ Kind.u.hi n := by
    rw [f1, hhi]
    have : (((data.map (·.toNat)).prod : Nat) : Int) < ((2 ^ n : Nat) : Int) := by exact_mod_cast h
    push_cast at this ⊢
    omega
  constructor
  · constructor
    · rintro ⟨r, h⟩
      rcases C166_debug (c := c) hd hk h0 hw fuel data hlen hfuel with ⟨r', h1, h2⟩ | h1
      · exact back r' h2
      · rw [h] at h1; cases h1
    · intro h
      obtain ⟨r, h1, -⟩ := C166_fits (c := c) hk h0 hw fuel data (fit h) hlen hfuel
      exact ⟨r, h1⟩
  · constructor
    · rintro ⟨r, h⟩
      have := mulInt_fold_value (by omega) hd _ _ _ h
      rw [value_one hk h0, Int.one_mul] at this
      exact back r this
    · intro h
      obtain ⟨r, h1, -⟩ := product_scalar (c := c) hk (by omega) data (1 : BitVec n)
        (by rw [hf1, Nat.one_mul]; exact fit h)
      exact ⟨r, h1⟩

/-- Where native vectors wrap silently, software vectors panic; products which fit are returned; and a zero which a
loop meets first does not help. -/
example : sliceProductSoft debug64 9 .u 2 [16#8, 1#8, 17#8, 1#8] = Res.panic ∧
    sliceProduct debug64 9 .u 2 [16#8, 1#8, 17#8, 1#8] = ok 16#8 ∧
    sliceProductSoft debug64 9 .u 2 [2#8, 3#8, 5#8, 1#8, 7#8] = ok 210#8 ∧
    sliceProductSoft release64 9 .u 2 [16#8, 1#8, 17#8, 1#8] = ok 16#8 := by
  refine ⟨?_, ?_, ?_, ?_⟩ <;> decide +kernel

/-- A zero which a loop meets first does not help the lanes. -/
theorem C166_zero : sliceProductSoft debug64 9 .u 2 [0#8, 16#8, 1#8, 17#8] = Res.panic ∧
    [0#8, 16#8, 1#8, 17#8].foldlM (mulInt debug64 .u) 1 = ok 0#8 := by
  constructor <;> decide +kernel

end Faster
