import Verif.Props.CountEqual
/-
C158: saturating sums of slices.
-/
namespace Faster
open Res

variable {n w : Nat} {c : Cfg}

/-- A version of `saturating_add`. -/
def SatAddOp (signed : Bool)
    (F : Vector (BitVec n) w → Vector (BitVec n) w → Res (Vector (BitVec n) w)) : Prop :=
  ∀ a b, ∃ v, F a b = ok v ∧ ∀ i (hi : i < w),
    num signed v[i] = nearest signed n (num signed a[i] + num signed b[i])

/-- `slice.simd_iter(d).simd_reduce(splat(0), |acc, v| acc.saturating_add(v))
.scalar_reduce(0, |a, x| a.saturating_add(x))`. -/
def satSum (c : Cfg) (fuel : Nat) (k : Kind)
    (F : Vector (BitVec n) w → Vector (BitVec n) w → Res (Vector (BitVec n) w))
    (data : List (BitVec n)) (d : Vector (BitVec n) w) : Res (BitVec n) := do
  let (_, acc, _) ← simdReduce c fuel (simdIter data d) (Packed.splat 0) () fun _ acc v => do
    let u ← F acc v
    ok (u, ())
  Packed.scalarReduce acc 0 fun a x => ok (satAddScalar k a x)

/-- The sum of a list of lanes as a number. -/
def listTotal (signed : Bool) (l : List (BitVec n)) : Int := (l.map (num signed)).sum

/-- The sum of the absolute values. -/
def listAbs (signed : Bool) (l : List (BitVec n)) : Int := (l.map fun x => ((num signed x).natAbs : Int)).sum

theorem listTotal_append (signed : Bool) (l l' : List (BitVec n)) :
    listTotal signed (l ++ l') = listTotal signed l + listTotal signed l' := by
  simp [listTotal]

theorem listAbs_append (signed : Bool) (l l' : List (BitVec n)) :
    listAbs signed (l ++ l') = listAbs signed l + listAbs signed l' := by
  simp [listAbs]

theorem lanes_calls_total (signed : Bool) (hw : 0 < w) (d : Vector (BitVec n) w) (l : List (BitVec n)) :
    listTotal signed (lanes (calls w d l)) = listTotal signed l + listTotal signed (padding w d l) ∧
    listAbs signed (lanes (calls w d l)) = listAbs signed l + listAbs signed (padding w d l) := by
  have hp : (lanes (calls w d l)).Perm (l ++ padding w d l) := by
    rw [List.perm_iff_count]
    intro x
    rw [lanes_calls_count hw, List.count_append]
  constructor
  · rw [← listTotal_append]
    exact (hp.map _).sum_eq
  · rw [← listAbs_append]
    exact (hp.map _).sum_eq

theorem satAddOp_list {signed : Bool} {a b v : Vector (BitVec n) w}
    (h : ∀ i (hi : i < w), num signed v[i] = nearest signed n (num signed a[i] + num signed b[i])) :
    v.toList.map (num signed) = List.zipWith (fun x y => nearest signed n (x + y))
      (a.toList.map (num signed)) (b.toList.map (num signed)) := by
  apply List.ext_getElem
  · simp
  · intro i h1 h2
    simp only [List.length_map, Vector.length_toList] at h1
    simpa using h i h1

/-! ### Unsigned -/

theorem unsigned_zip (M : Int) (hM : 0 ≤ M) : ∀ xs ys : List Int, xs.length = ys.length →
    (∀ x ∈ xs, 0 ≤ x) → (∀ y ∈ ys, 0 ≤ y) →
    min M (List.zipWith (fun x y => max 0 (min M (x + y))) xs ys).sum = min M (xs.sum + ys.sum) ∧
    0 ≤ (List.zipWith (fun x y => max 0 (min M (x + y))) xs ys).sum ∧ 0 ≤ xs.sum + ys.sum
  | [], [], _, _, _ => by simp
  | x :: xs, y :: ys, hl, hx, hy => by
    obtain ⟨h1, h2, h3⟩ := unsigned_zip M hM xs ys (by simpa using hl)
      (fun z hz => hx z (List.mem_cons_of_mem _ hz)) (fun z hz => hy z (List.mem_cons_of_mem _ hz))
    have hx0 := hx x List.mem_cons_self
    have hy0 := hy y List.mem_cons_self
    rw [List.zipWith_cons_cons, List.sum_cons, List.sum_cons, List.sum_cons]
    omega

theorem listTotal_nonneg (l : List (BitVec n)) : 0 ≤ listTotal false l := by
  induction l with
  | nil => simp [listTotal]
  | cons x l ih =>
    have : listTotal false (x :: l) = num false x + listTotal false l := by simp [listTotal]
    have h : num false x = x.toNat := rfl
    omega

theorem unsigned_fold {F : Vector (BitVec n) w → Vector (BitVec n) w → Res (Vector (BitVec n) w)}
    (hF : SatAddOp false F) (vs : List (Vector (BitVec n) w)) : ∀ start : Vector (BitVec n) w,
    ∃ acc, vs.foldlM (fun (p : Vector (BitVec n) w × Unit) v => (do
        let u ← F p.1 v
        ok (u, ()) : Res (Vector (BitVec n) w × Unit))) (start, ()) = ok (acc, ()) ∧
      min (2 ^ n - 1) (listTotal false acc.toList) =
        min (2 ^ n - 1) (listTotal false start.toList + listTotal false (lanes vs)) := by
  induction vs with
  | nil => intro start; exact ⟨start, rfl, by simp [listTotal]⟩
  | cons v vs ih =>
    intro start
    obtain ⟨u, hu, hl⟩ := hF start v
    have hM : (0 : Int) ≤ 2 ^ n - 1 := by
      have : (0 : Int) < 2 ^ n := by positivity
      omega
    obtain ⟨acc, h1, h2⟩ := ih u
    refine ⟨acc, ?_, ?_⟩
    · rw [List.foldlM_cons]
      simp only [hu, ok_bind]
      exact h1
    · have hz := (unsigned_zip (2 ^ n - 1) hM (start.toList.map (num false)) (v.toList.map (num false))
        (by simp) (by simp [num]) (by simp [num])).1
      have hu' : listTotal false u.toList = (List.zipWith (fun x y => max 0 (min (2 ^ n - 1) (x + y)))
          (start.toList.map (num false)) (v.toList.map (num false))).sum := by
        unfold listTotal
        rw [satAddOp_list hl]
        rfl
      rw [← hu'] at hz
      have hn := listTotal_nonneg (lanes vs)
      have hp1 := listTotal_nonneg u.toList
      have hp2 := listTotal_nonneg start.toList
      have hp3 := listTotal_nonneg v.toList
      rw [h2, lanes_cons, listTotal_append]
      have : min (2 ^ n - 1) (listTotal false u.toList) =
        min (2 ^ n - 1) (listTotal false start.toList + listTotal false v.toList) := hz
      omega

theorem unsigned_scalar (h0 : 0 < n) (l : List (BitVec n)) : ∀ a : BitVec n, ∃ r,
    l.foldlM (fun a x => (ok (satAddScalar .u a x) : Res (BitVec n))) a = ok r ∧
      num false r = min (2 ^ n - 1) (num false a + listTotal false l) := by
  induction l with
  | nil =>
    intro a
    refine ⟨a, rfl, ?_⟩
    have := a.isLt
    have h : (a.toNat : Int) < 2 ^ n := by exact_mod_cast this
    simp only [listTotal, List.map_nil, List.sum_nil, num, Bool.false_eq_true, if_false]
    omega
  | cons x l ih =>
    intro a
    obtain ⟨r, h1, h2⟩ := ih (satAddScalar .u a x)
    refine ⟨r, h1, ?_⟩
    have h := satAddScalar_num .u h0 a x
    simp only [Kind.signed, nearest, Bool.false_eq_true, if_false] at h
    have hc : listTotal false (x :: l) = num false x + listTotal false l := by simp [listTotal]
    have hn := listTotal_nonneg l
    have ha : 0 ≤ num false a := by simp [num]
    have hx : 0 ≤ num false x := by simp [num]
    have hM : (0 : Int) < 2 ^ n := by positivity
    rw [h2, h, hc]
    omega

/-- **C158**, unsigned lanes: the sum of the elements, and of the lanes of the default vector which fill
the last vector, or the largest number if the sum does not fit. -/
theorem C158_unsigned (hw : 0 < w) (hn : 0 < n)
    {F : Vector (BitVec n) w → Vector (BitVec n) w → Res (Vector (BitVec n) w)}
    (hF : SatAddOp false F) (fuel : Nat) (data : List (BitVec n)) (d : Vector (BitVec n) w)
    (hlen : data.length + w < c.usize) (hfuel : data.length / w < fuel) :
    ∃ r, satSum c fuel .u F data d = ok r ∧
      num false r = nearest false n (listTotal false data + listTotal false (padding w d data)) := by
  obtain ⟨acc, h1, h2⟩ := unsigned_fold hF (calls w d data) (Packed.splat 0)
  obtain ⟨r, h3, h4⟩ := unsigned_scalar hn acc.toList 0
  refine ⟨r, ?_, ?_⟩
  · unfold satSum
    rw [C03_reduce_fold c fuel data d _ () _ hw hlen hfuel]
    have h' : (do
        let (acc, st') ← (calls w d data).foldlM (fun (p : Vector (BitVec n) w × Unit) v => (do
          let u ← F p.1 v
          ok (u, ()) : Res (Vector (BitVec n) w × Unit))) (Packed.splat 0, ())
        ok ((⟨data.length, ⟨data⟩, d⟩ : SIMDIter (Slice (BitVec n) w) (BitVec n) w), acc, st')) =
        ok (⟨data.length, ⟨data⟩, d⟩, acc, ()) := by
      rw [h1]; rfl
    rw [h']
    simp only [ok_bind, Packed.scalarReduce]
    rw [scalarReduceLoop_ok _ _ w 0 0 (by omega), List.drop_zero, h3]
  · have hz : listTotal false (Packed.splat 0 : Vector (BitVec n) w).toList = 0 := by
      simp [listTotal, Packed.splat, num]
    have h0 : num false (0 : BitVec n) = 0 := by simp [num]
    have hp := listTotal_nonneg data
    have hp' := listTotal_nonneg (padding w d data)
    have hM : (0 : Int) < 2 ^ n := by positivity
    rw [h4, h0, Int.zero_add, h2, hz, (lanes_calls_total false hw d data).1]
    simp only [nearest, Bool.false_eq_true, if_false]
    omega

/-! ### Signed -/

theorem natAbs_sum_nonneg {α : Type} (f : α → Int) (l : List α) :
    0 ≤ (l.map fun x => ((f x).natAbs : Int)).sum := by
  induction l with
  | nil => simp
  | cons x l ih => rw [List.map_cons, List.sum_cons]; omega

theorem signed_zip (B : Int) : ∀ xs ys : List Int, xs.length = ys.length →
    (xs.map fun x => (x.natAbs : Int)).sum + (ys.map fun x => (x.natAbs : Int)).sum ≤ B →
    List.zipWith (fun x y => max (-B - 1) (min B (x + y))) xs ys = List.zipWith (· + ·) xs ys ∧
    (List.zipWith (· + ·) xs ys).sum = xs.sum + ys.sum ∧
    ((List.zipWith (· + ·) xs ys).map fun x => (x.natAbs : Int)).sum ≤
      (xs.map fun x => (x.natAbs : Int)).sum + (ys.map fun x => (x.natAbs : Int)).sum ∧
    0 ≤ (xs.map fun x => (x.natAbs : Int)).sum + (ys.map fun x => (x.natAbs : Int)).sum
  | [], [], _, _ => by simp
  | x :: xs, y :: ys, hl, hB => by
    simp only [List.map_cons, List.sum_cons] at hB ⊢
    obtain ⟨h1, h2, h3, h4⟩ := signed_zip B xs ys (by simpa using hl) (by omega)
    rw [List.zipWith_cons_cons, List.zipWith_cons_cons, h1, List.map_cons, List.sum_cons, List.sum_cons, h2]
    refine ⟨?_, by omega, by omega, by omega⟩
    congr 1
    have : 0 ≤ ((List.zipWith (· + ·) xs ys).map fun x => (x.natAbs : Int)).sum := natAbs_sum_nonneg id _
    omega

theorem listAbs_nonneg (l : List (BitVec n)) : 0 ≤ listAbs true l :=
  natAbs_sum_nonneg (num true) l

theorem listTotal_le_abs (l : List (BitVec n)) : (listTotal true l).natAbs ≤ listAbs true l := by
  induction l with
  | nil => simp [listTotal, listAbs]
  | cons x l ih =>
    have h1 : listTotal true (x :: l) = num true x + listTotal true l := by simp [listTotal]
    have h2 : listAbs true (x :: l) = (num true x).natAbs + listAbs true l := by simp [listAbs]
    omega

theorem nearest_signed (n : Nat) (x : Int) :
    nearest true n x = max (-(2 ^ (n - 1) - 1) - 1) (min (2 ^ (n - 1) - 1) x) := by
  simp only [nearest, if_true]
  omega

theorem signed_fold {F : Vector (BitVec n) w → Vector (BitVec n) w → Res (Vector (BitVec n) w)}
    (hF : SatAddOp true F) (vs : List (Vector (BitVec n) w)) : ∀ start : Vector (BitVec n) w,
    listAbs true start.toList + listAbs true (lanes vs) ≤ 2 ^ (n - 1) - 1 →
    ∃ acc, vs.foldlM (fun (p : Vector (BitVec n) w × Unit) v => (do
        let u ← F p.1 v
        ok (u, ()) : Res (Vector (BitVec n) w × Unit))) (start, ()) = ok (acc, ()) ∧
      listTotal true acc.toList = listTotal true start.toList + listTotal true (lanes vs) ∧
      listAbs true acc.toList ≤ listAbs true start.toList + listAbs true (lanes vs) := by
  induction vs with
  | nil => intro start _; exact ⟨start, rfl, by simp [listTotal], by simp [listAbs]⟩
  | cons v vs ih =>
    intro start hB
    obtain ⟨u, hu, hl⟩ := hF start v
    rw [lanes_cons, listAbs_append] at hB
    have hn := listAbs_nonneg (lanes vs)
    have hmap (l : List (BitVec n)) : ((l.map (num true)).map fun x => (x.natAbs : Int)).sum = listAbs true l := by
      rw [List.map_map]; rfl
    obtain ⟨z1, z2, z3, -⟩ := signed_zip (2 ^ (n - 1) - 1) (start.toList.map (num true))
      (v.toList.map (num true)) (by simp) (by rw [hmap, hmap]; omega)
    have hu' := satAddOp_list hl
    simp only [nearest_signed] at hu'
    rw [z1] at hu'
    have hs : listTotal true u.toList = listTotal true start.toList + listTotal true v.toList := by
      unfold listTotal
      rw [hu', z2]
    have ha : listAbs true u.toList ≤ listAbs true start.toList + listAbs true v.toList := by
      rw [← hmap, ← hmap, ← hmap, hu']
      exact z3
    obtain ⟨acc, h1, h2, h3⟩ := ih u (by omega)
    refine ⟨acc, ?_, ?_, ?_⟩
    · rw [List.foldlM_cons]
      simp only [hu, ok_bind]
      exact h1
    · rw [h2, hs, lanes_cons, listTotal_append]; omega
    · rw [lanes_cons, listAbs_append]; omega

theorem signed_scalar (h0 : 0 < n) (l : List (BitVec n)) : ∀ a : BitVec n,
    (num true a).natAbs + listAbs true l ≤ 2 ^ (n - 1) - 1 → ∃ r,
    l.foldlM (fun a x => (ok (satAddScalar .i a x) : Res (BitVec n))) a = ok r ∧
      num true r = num true a + listTotal true l := by
  induction l with
  | nil => intro a _; exact ⟨a, rfl, by simp [listTotal]⟩
  | cons x l ih =>
    intro a hB
    have h := satAddScalar_num .i h0 a x
    simp only [Kind.signed, nearest_signed] at h
    have hc : listTotal true (x :: l) = num true x + listTotal true l := by simp [listTotal]
    have hd : listAbs true (x :: l) = (num true x).natAbs + listAbs true l := by simp [listAbs]
    have hn := listAbs_nonneg l
    rw [hd] at hB
    have h' : num true (satAddScalar .i a x) = num true a + num true x := by
      rw [h]; omega
    obtain ⟨r, h1, h2⟩ := ih (satAddScalar .i a x) (by rw [h']; omega)
    exact ⟨r, h1, by rw [h2, h', hc]; omega⟩

/-- **C158**, signed lanes, partial: the exact sum if the sum of the absolute values fits. Missing: other
slices, where the result depends on which elements are in one lane (`C158_false`). -/
theorem C158_signed_partial (hw : 0 < w) (hn : 0 < n)
    {F : Vector (BitVec n) w → Vector (BitVec n) w → Res (Vector (BitVec n) w)}
    (hF : SatAddOp true F) (fuel : Nat) (data : List (BitVec n)) (d : Vector (BitVec n) w)
    (hB : listAbs true data + listAbs true (padding w d data) ≤ 2 ^ (n - 1) - 1)
    (hlen : data.length + w < c.usize) (hfuel : data.length / w < fuel) :
    ∃ r, satSum c fuel .i F data d = ok r ∧
      num true r = listTotal true data + listTotal true (padding w d data) := by
  have hz : listAbs true (Packed.splat 0 : Vector (BitVec n) w).toList = 0 := by
    simp [listAbs, Packed.splat, num]
  have hz' : listTotal true (Packed.splat 0 : Vector (BitVec n) w).toList = 0 := by
    simp [listTotal, Packed.splat, num]
  have h0 : num true (0 : BitVec n) = 0 := by simp [num]
  have ht := lanes_calls_total true hw d data
  obtain ⟨acc, h1, h2, h2'⟩ := signed_fold hF (calls w d data) (Packed.splat 0) (by omega)
  obtain ⟨r, h3, h4⟩ := signed_scalar hn acc.toList 0 (by rw [h0]; omega)
  refine ⟨r, ?_, ?_⟩
  · unfold satSum
    rw [C03_reduce_fold c fuel data d _ () _ hw hlen hfuel]
    have h' : (do
        let (acc, st') ← (calls w d data).foldlM (fun (p : Vector (BitVec n) w × Unit) v => (do
          let u ← F p.1 v
          ok (u, ()) : Res (Vector (BitVec n) w × Unit))) (Packed.splat 0, ())
        ok ((⟨data.length, ⟨data⟩, d⟩ : SIMDIter (Slice (BitVec n) w) (BitVec n) w), acc, st')) =
        ok (⟨data.length, ⟨data⟩, d⟩, acc, ()) := by
      rw [h1]; rfl
    rw [h']
    simp only [ok_bind, Packed.scalarReduce]
    rw [scalarReduceLoop_ok _ _ w 0 0 (by omega), List.drop_zero, h3]
  · rw [h4, h0, h2, hz', ht.1]
    omega

/-- **C158**: the versions of `saturating_add` of the crate meet the hypotheses. -/
theorem C158_versions (c : Cfg) :
    (∀ r ∈ satAddRows, SatAddOp (n := 8 * r.size) (w := r.width) r.kind.signed (binaryInstr r.mm)) ∧
    (∀ r, r ∈ satAddRows ∨ r ∈ satAddRowsUnknown →
      SatAddOp (n := 8 * r.size) (w := r.width) r.kind.signed
        (binaryFallback (r.fn.eval c r.kind) r.idx)) :=
  ⟨fun r hr a b => C39_add_optimized r hr a b, fun r hr a b => C39_add_fallback c r hr a b⟩

/-- **C158**, the loop with which it is compared: for unsigned elements the same. -/
theorem C158_loop_unsigned (hn : 0 < n) (data : List (BitVec n)) :
    num false (data.foldl (satAddScalar .u) 0) = nearest false n (listTotal false data) := by
  obtain ⟨r, h1, h2⟩ := unsigned_scalar hn data 0
  rw [foldlM_ok] at h1
  obtain rfl := Res.ok.inj h1
  have hp := listTotal_nonneg data
  have h0 : num false (0 : BitVec n) = 0 := by simp [num]
  have hM : (0 : Int) < 2 ^ n := by positivity
  rw [h2, h0]
  simp only [nearest, Bool.false_eq_true, if_false]
  omega

/-- **C158** is false for signed elements: the sum of 100, -100, 100 and -100 after fourteen zeros is -1
with `i8x16`, zero in a loop. -/
theorem C158_false :
    satSum release64 9 .i (w := 16) (binaryInstr .mm_adds_epi8)
      [0#8, 0, 0, 0, 0, 0, 0, 0, 0, 0, 0, 0, 0, 0, 100, -100, 100, -100] (Packed.splat 0) = ok (-1) ∧
    [0#8, 0, 0, 0, 0, 0, 0, 0, 0, 0, 0, 0, 0, 0, 100, -100, 100, -100].foldl (satAddScalar .i) 0 = 0 := by
  decide +kernel

/-- The hypotheses can be met, and the sum of the bytes does not fit. -/
example : ∃ r, satSum release64 9 .u (w := 16) (binaryInstr .mm_adds_epu8) [200#8, 100, 50] (Packed.splat 0) =
    ok r ∧ num false r = nearest false 8 (listTotal false [200#8, 100, 50] +
      listTotal false (padding 16 (Packed.splat 0) [200#8, 100, 50])) :=
  C158_unsigned (n := 8) (w := 16) (by decide) (by decide) ((C158_versions release64).1 satAddRows[0] (by simp)) 9 _ _
    (by decide) (by decide)

example : ∃ r, satSum release64 9 .i (w := 16) (binaryInstr .mm_adds_epi8) [50#8, -20, 30] (Packed.splat 0) =
    ok r ∧ num true r = listTotal true [50#8, -20, 30] +
      listTotal true (padding 16 (Packed.splat 0) [50#8, -20, 30]) :=
  C158_signed_partial (n := 8) (w := 16) (by decide) (by decide) ((C158_versions release64).1 satAddRows[1] (by simp)) 9
    _ _ (by decide) (by decide) (by decide)

end Faster
