import Verif.Props.EndToEnd
/-
C82–C84: the programs of the crate's own tests (`tests/zip.rs`, `tests/kernel.rs`,
`examples/main.rs`), for every input instead of the one tested.
-/
namespace Faster
open Res SIMDSized SIMDIterable SIMDIterator

/-! ### Sums of padded passes -/

theorem sum_zipWith_add {n : Nat} : ∀ (a b : List (BitVec n)), a.length = b.length →
    (List.zipWith (· + ·) a b).sum = a.sum + b.sum
  | [], [], _ => by simp
  | x :: a, y :: b, h => by
    have := sum_zipWith_add a b (by simpa using h)
    simp only [List.zipWith_cons_cons, List.sum_cons, this]
    ac_rfl

/-- Adding vectors and then all lanes is adding all lanes. -/
theorem sum_foldl_add {n w : Nat} (vs : List (Vector (BitVec n) w)) (acc : Vector (BitVec n) w) :
    (vs.foldl (fun a v => Vector.zipWith (· + ·) a v) acc).toList.sum =
      acc.toList.sum + (lanes vs).sum := by
  induction vs generalizing acc with
  | nil => simp
  | cons v vs ih =>
    have : (Vector.zipWith (· + ·) acc v).toList = List.zipWith (· + ·) acc.toList v.toList := by
      apply List.ext_getElem <;> simp
    rw [List.foldl_cons, ih, this, sum_zipWith_add _ _ (by simp), lanes_cons, List.sum_append,
      BitVec.add_assoc]

theorem sum_splat_zero {n w : Nat} :
    (Packed.splat (0 : BitVec n) : Vector (BitVec n) w).toList.sum = 0 := by
  rw [Packed.splat, Vector.toList_replicate]
  induction w with
  | zero => rfl
  | succ w ih => rw [List.replicate_succ, List.sum_cons, ih]; simp

/-- All lanes passed to a closure: the elements, and in front of the last ones the
lanes of the default vector which fill it up. -/
theorem sum_calls {ρ : Type} {n w : Nat} (hw : 0 < w) (g : ρ → BitVec n) (d : Vector ρ w)
    (l : List ρ) :
    ((lanes (calls w d l)).map g).sum =
      (l.map g).sum + ((d.toList.take ((w - l.length % w) % w)).map g).sum := by
  have key := lanes_fullWindows hw l
  have hl := leftover_length w l
  have hm := Nat.mod_lt l.length hw
  have hsplit : (l.map g).sum =
      ((lanes (fullWindows w l)).map g).sum + ((leftover w l).map g).sum := by
    rw [← List.sum_append, ← List.map_append, key]
  rw [hsplit, calls, lanes_append, List.map_append, List.sum_append, BitVec.add_assoc]
  congr 1
  split
  · have : leftover w l = [] := List.eq_nil_of_length_eq_zero (by omega)
    rw [this, show (w - l.length % w) % w = 0 by
      rw [show l.length % w = 0 by omega, Nat.sub_zero, Nat.mod_self]]
    simp
  · have hpad := padFront_drop d (leftover w l) (by omega)
    have htake : (padFront d (leftover w l)).toList.take (w - (leftover w l).length) =
        d.toList.take (w - (leftover w l).length) := by
      apply List.ext_getElem
      · simp
      · intro i h1 h2
        simp only [List.length_take, Vector.length_toList] at h2
        simp only [List.getElem_take, Vector.getElem_toList]
        rw [padFront_getElem _ _ _ _ (by omega), dif_pos (by omega)]
    rw [lanes_cons, lanes_nil, List.append_nil,
      ← List.take_append_drop (w - (leftover w l).length) (padFront d (leftover w l)).toList, hpad,
      htake, hl, Nat.mod_eq_of_lt (show w - l.length % w < w by omega), List.map_append,
      List.sum_append, BitVec.add_comm]

/-- The sum of values whose padding values are zero. -/
theorem sum_zero {ρ : Type} {n : Nat} (g : ρ → BitVec n) (l : List ρ) (h : ∀ x ∈ l, g x = 0) :
    (l.map g).sum = 0 := by
  induction l with
  | nil => rfl
  | cons x l ih =>
    rw [List.map_cons, List.sum_cons, h x (by simp), ih (fun y hy => h y (by simp [hy]))]
    simp

theorem ofInt_sum_map {ρ : Type} {n : Nat} (l : List ρ) (h : ρ → Int) (g : ρ → BitVec n)
    (hg : ∀ x, BitVec.ofInt n (h x) = g x) : BitVec.ofInt n (l.map h).sum = (l.map g).sum := by
  induction l with
  | nil => simp
  | cons x l ih => rw [List.map_cons, List.sum_cons, List.map_cons, List.sum_cons,
      BitVec.ofInt_add, ih, hg]

theorem sumOp_sum {n w : Nat} {signed : Bool} {F : Vector (BitVec n) w → Res (BitVec n)}
    (hF : SumOp signed F) (v : Vector (BitVec n) w) : F v = ok v.toList.sum := by
  rw [hF]
  congr 1
  apply sum_ofInt
  intro x
  cases signed
  · exact Kind.ofInt_value .u x
  · exact Kind.ofInt_value .i x

theorem ofInt_num {n : Nat} (signed : Bool) (x : BitVec n) : BitVec.ofInt n (num signed x) = x := by
  cases signed
  · exact Kind.ofInt_value .u x
  · exact Kind.ofInt_value .i x

/-! ### C82 -/

section General
variable {I R α γ δ : Type} {w : Nat} [SIMDSized I] [SIMDIterator I α w] [Packable α]
  [ZipRest R γ] [LawfulRest R γ δ w] {c : Cfg} {S : Nat → I} {r : R} {rows : List (α × δ)}
  {dv : Vector (α × δ) w} {more : Nat → Prop}

/-- A zipped reduction with lane-wise `F` folds over the rows of the zip. -/
theorem zip_reduce_vectors {β : Type} (hd : Driver c S (rows.map Prod.fst) (dv.map Prod.fst) more)
    (hw : 0 < w) (hr : LawfulRest.Rep c r (rows.map Prod.snd) (dv.map Prod.snd))
    (hu : rows.length + w < c.usize) (fuel : Nat) (F : Vector α w × γ → Vector β w)
    (g : α × δ → β) (hF : ∀ v : Vector (α × δ) w, F (packRow R v) = v.map g)
    (h : Vector β w → Vector β w → Vector β w) (a : Vector β w) (hfuel : rows.length / w < fuel)
    {η : Type} (k : Vector β w → Res η) :
    (do
      let z ← zip c (S 0) r
      let (_, acc, _) ← zsimdReduce c fuel z a () (fun _ acc v => ok (h acc (F v), ()))
      k acc) = k (((calls w dv rows).map (Vector.map g)).foldl h a) := by
  have := zip_reduce hd hw hr hu fuel a () (fun _ acc v => ok (h acc (F v), ())) hfuel
  rw [← bind_assoc, this, foldlM_ok (fun (p : Vector β w × Unit) v => (h p.1 (F v), ()))]
  simp only [ok_bind]
  have e : ∀ (vs : List (Vector (α × δ) w)) (a : Vector β w),
      ((vs.map (packRow R)).foldl (fun (p : Vector β w × Unit) v => (h p.1 (F v), ())) (a, ())).1 =
      (vs.map (Vector.map g)).foldl h a := by
    intro vs
    induction vs with
    | nil => intro a; rfl
    | cons v vs ih => intro a; simp only [List.map_cons, List.foldl_cons, ih, hF]
  rw [e]

/-- The same with a mapped zip. -/
theorem zip_map_reduce_vectors {β : Type} [Packable β]
    (hd : Driver c S (rows.map Prod.fst) (dv.map Prod.fst) more)
    (hw : 0 < w) (hr : LawfulRest.Rep c r (rows.map Prod.snd) (dv.map Prod.snd))
    (hu : rows.length + w < c.usize) (fuel : Nat) (F : Vector α w × γ → Vector β w)
    (g : α × δ → β) (hF : ∀ v : Vector (α × δ) w, F (packRow R v) = v.map g)
    (hs : 0 < Packable.size β) (hvec : w * Packable.size α < c.usize)
    (h : Vector β w → Vector β w → Vector β w) (a : Vector β w) (hfuel : rows.length / w < fuel)
    {η : Type} (κ : Vector β w → Res η) :
    (do
      let z ← zip c (S 0) r
      let (_, acc, _) ← simdReduce c fuel (zsimdMap z () (pureFn F)) a ()
        (fun _ acc v => ok (h acc v, ()))
      κ acc) = κ (((calls w dv rows).map (Vector.map g)).foldl h a) := by
  rw [zip_ok hd hw hr]
  simp only [ok_bind]
  obtain ⟨k, hc, he⟩ := zip_emits hd hw hr hu
  obtain ⟨h1, -⟩ := Driver.count_cases hw hc
  have hm := zipMap_emits (pureFn F) he hs
    (by
      intro p m hpm
      rcases ht : tailFrom dv rows k with _ | ⟨q, m'⟩
      · rw [ht] at hpm; cases hpm
      · rw [ht] at hpm
        simp only [Option.map_some, Option.some.injEq, Prod.mk.injEq] at hpm
        have h5 := tailFrom_some ht
        have h6 : m * Packable.size α ≤ w * Packable.size α := Nat.mul_le_mul_right _ (by omega)
        exact Nat.lt_of_le_of_lt h6 hvec) ()
  rw [mapRun_pure] at hm
  simp only [ok_bind] at hm
  have hl : ((((fullWindows w rows).take k).map (packRow R)).map F).length < fuel := by
    rw [List.length_map, List.length_map, List.length_take, fullWindows_length]; omega
  have hcalls : ∀ t, zmapTail (pureFn F) (SIMDZippedIterator.size (⟨S rows.length, r⟩ : Zip I R))
      (⟨S rows.length, r⟩ : Zip I R) () t =
      ok (t.map fun q => (F q.1, q.2 * Packable.size α / Packable.size β),
        ⟨⟨S rows.length, r⟩, (), pureFn F⟩) := by
    intro t
    cases t <;> rfl
  rw [hcalls] at hm
  have := simdReduce_emits (fun (_ : Unit) acc v => ok (h acc v, ())) hm fuel a () hl
  rw [zsimdMap, this, foldlM_ok (fun (p : Vector β w × Unit) v => (h p.1 v, ()))]
  simp only [ok_bind]
  have e : ∀ (vs : List (Vector β w)) (a : Vector β w),
      (vs.foldl (fun (p : Vector β w × Unit) v => (h p.1 v, ())) (a, ())).1 = vs.foldl h a := by
    intro vs
    induction vs with
    | nil => intro a; rfl
    | cons v vs ih => intro a; simp only [List.foldl_cons, ih]
  have hw2 : withTail ((((fullWindows w rows).take k).map (packRow R)).map F)
      (((tailFrom dv rows k).map fun q => (packRow R q.1, q.2)).map fun q =>
        (F q.1, q.2 * Packable.size α / Packable.size β)) =
      (calls w dv rows).map (Vector.map g) := by
    rw [← withTail_tailFrom hw dv rows hc, withTail, withTail, List.map_append, List.map_map,
      show F ∘ packRow R = Vector.map g from funext hF]
    congr 1
    cases tailFrom dv rows k with
    | none => rfl
    | some q => simp [hF]
  rw [e, hw2]

/-- **C82**, any arity and any kind of iterators: `zip`, then
`simd_reduce(splat(0), |acc, t| acc + F(t)).sum()` with `F` lane-wise. The result
is exact also when the lanes of the default vectors contribute. -/
theorem C82_zip_reduce_sum {n : Nat} {signed : Bool} {Fsum : Vector (BitVec n) w → Res (BitVec n)}
    (hsum : SumOp signed Fsum)
    (hd : Driver c S (rows.map Prod.fst) (dv.map Prod.fst) more) (hw : 0 < w)
    (hr : LawfulRest.Rep c r (rows.map Prod.snd) (dv.map Prod.snd))
    (hu : rows.length + w < c.usize) (fuel : Nat) (F : Vector α w × γ → Vector (BitVec n) w)
    (g : α × δ → BitVec n) (hF : ∀ v : Vector (α × δ) w, F (packRow R v) = v.map g)
    (hfuel : rows.length / w < fuel) :
    (do
      let z ← zip c (S 0) r
      let (_, acc, _) ← zsimdReduce c fuel z (Packed.splat 0) ()
        (fun _ acc v => ok (Vector.zipWith (· + ·) acc (F v), ()))
      Fsum acc) =
      ok ((rows.map g).sum + ((dv.toList.take ((w - rows.length % w) % w)).map g).sum) := by
  rw [zip_reduce_vectors hd hw hr hu fuel F g hF (fun a v => Vector.zipWith (· + ·) a v) _ hfuel,
    sumOp_sum hsum, sum_foldl_add, sum_splat_zero, lanes_map, sum_calls hw]
  simp

/-- **C82**, the same with a mapped zip:
`zip().simd_map(F).simd_reduce(splat(0), |acc, v| acc + v).sum()`. -/
theorem C82_zip_map_reduce_sum {n : Nat} {signed : Bool}
    {Fsum : Vector (BitVec n) w → Res (BitVec n)} (hsum : SumOp signed Fsum)
    (hd : Driver c S (rows.map Prod.fst) (dv.map Prod.fst) more) (hw : 0 < w)
    (hr : LawfulRest.Rep c r (rows.map Prod.snd) (dv.map Prod.snd))
    (hu : rows.length + w < c.usize) (fuel : Nat) (F : Vector α w × γ → Vector (BitVec n) w)
    (g : α × δ → BitVec n) (hF : ∀ v : Vector (α × δ) w, F (packRow R v) = v.map g)
    (hs : 8 ≤ n) (hvec : w * Packable.size α < c.usize) (hfuel : rows.length / w < fuel) :
    (do
      let z ← zip c (S 0) r
      let (_, acc, _) ← simdReduce c fuel (zsimdMap z () (pureFn F)) (Packed.splat 0) ()
        (fun _ acc v => ok (Vector.zipWith (· + ·) acc v, ()))
      Fsum acc) =
      ok ((rows.map g).sum + ((dv.toList.take ((w - rows.length % w) % w)).map g).sum) := by
  rw [zip_map_reduce_vectors hd hw hr hu fuel F g hF (by simp only [Packable.size]; omega) hvec
    (fun a v => Vector.zipWith (· + ·) a v) _ hfuel,
    sumOp_sum hsum, sum_foldl_add, sum_splat_zero, lanes_map, sum_calls hw]
  simp

end General

/-- **C82**, dot products (tests/zip.rs, `zip_simd_reduce`): with zero defaults, the
zipped reduction is `Σ xᵢ·yᵢ` modulo `2^n`. -/
theorem C82_dot_product {n w : Nat} {signed : Bool} {Fsum : Vector (BitVec n) w → Res (BitVec n)}
    (hsum : SumOp signed Fsum) (c : Cfg) (fuel : Nat) (xs ys : List (BitVec n))
    (h : xs.length = ys.length) (hw : 0 < w) (hu : xs.length + w < c.usize)
    (hfuel : xs.length / w < fuel) :
    (do
      let z ← zip c (simdIter (w := w) xs (Packed.splat 0))
        (simdIter (w := w) ys (Packed.splat 0), ())
      let (_, acc, _) ← zsimdReduce c fuel z (Packed.splat 0) ()
        (fun _ acc (v : Vector (BitVec n) w × Vector (BitVec n) w × Unit) =>
          ok (Vector.zipWith (· + ·) acc (Vector.zipWith (· * ·) v.1 v.2.1), ()))
      Fsum acc) =
      ok (BitVec.ofInt n ((xs.zip ys).map fun p => num signed p.1 * num signed p.2).sum) := by
  obtain ⟨h1, h2, h3⟩ := rows2_spec c xs ys (Packed.splat (0 : BitVec n)) (Packed.splat (0 : BitVec n)) 0 h hw hu
  have := C82_zip_reduce_sum hsum h2 hw h3 (by omega) fuel
    (fun v => Vector.zipWith (· * ·) v.1 v.2.1) (fun t => t.1 * t.2.1)
    (by intro v; ext i hi; simp [packRow, LawfulRest.pack]) (by rwa [h1])
  refine this.trans ?_
  congr 1
  rw [sum_zero _ (List.take _ _) (by
    intro t ht
    have := List.mem_of_mem_take ht
    simp only [Vector.mem_toList_iff, Vector.mem_iff_getElem] at this
    obtain ⟨i, hi, rfl⟩ := this
    simp [Packed.splat])]
  rw [ofInt_sum_map (xs.zip ys) _ (fun p => p.1 * p.2) (by
    intro p; rw [BitVec.ofInt_mul, ofInt_num, ofInt_num])]
  rw [show (0 : BitVec n) = 0#n from rfl, BitVec.add_zero]
  congr 1
  apply List.ext_getElem <;> simp [rows2]

/-- **C82**, sums of squared differences (tests/kernel.rs, second part). -/
theorem C82_squared_distance {n w : Nat} {signed : Bool}
    {Fsum : Vector (BitVec n) w → Res (BitVec n)}
    (hsum : SumOp signed Fsum) (c : Cfg) (fuel : Nat) (xs ys : List (BitVec n))
    (h : xs.length = ys.length) (hw : 0 < w) (hs : 8 ≤ n) (hu : xs.length + w < c.usize)
    (hvec : w * n < c.usize) (hfuel : xs.length / w < fuel) :
    (do
      let z ← zip c (simdIter (w := w) xs (Packed.splat 0))
        (simdIter (w := w) ys (Packed.splat 0), ())
      let (_, acc, _) ← simdReduce c fuel (zsimdMap z ()
        (pureFn fun (v : Vector (BitVec n) w × Vector (BitVec n) w × Unit) =>
          Vector.zipWith (· * ·) (Vector.zipWith (· - ·) v.1 v.2.1)
            (Vector.zipWith (· - ·) v.1 v.2.1)))
        (Packed.splat 0) () (fun _ acc v => ok (Vector.zipWith (· + ·) acc v, ()))
      Fsum acc) =
      ok (BitVec.ofInt n ((xs.zip ys).map fun p =>
        (num signed p.1 - num signed p.2) * (num signed p.1 - num signed p.2)).sum) := by
  have hle : w * (n / 8) ≤ w * n := Nat.mul_le_mul_left _ (Nat.div_le_self n 8)
  obtain ⟨h1, h2, h3⟩ := rows2_spec c xs ys (Packed.splat (0 : BitVec n)) (Packed.splat (0 : BitVec n)) 0 h hw hu
  have := C82_zip_map_reduce_sum hsum h2 hw h3 (by omega) fuel
    (fun v => Vector.zipWith (· * ·) (Vector.zipWith (· - ·) v.1 v.2.1)
            (Vector.zipWith (· - ·) v.1 v.2.1)) (fun t => (t.1 - t.2.1) * (t.1 - t.2.1))
    (by intro v; ext i hi; simp [packRow, LawfulRest.pack]) hs
    (by simp only [Packable.size]; omega) (by rwa [h1])
  refine this.trans ?_
  congr 1
  rw [sum_zero _ (List.take _ _) (by
    intro t ht
    have := List.mem_of_mem_take ht
    simp only [Vector.mem_toList_iff, Vector.mem_iff_getElem] at this
    obtain ⟨i, hi, rfl⟩ := this
    simp [Packed.splat])]
  rw [ofInt_sum_map (xs.zip ys) _ (fun p => (p.1 - p.2) * (p.1 - p.2)) (by
    intro p
    have : BitVec.ofInt n (num signed p.1 - num signed p.2) = p.1 - p.2 := by
      rw [Int.sub_eq_add_neg, BitVec.ofInt_add, BitVec.ofInt_neg, ofInt_num, ofInt_num,
        BitVec.sub_eq_add_neg]
    rw [BitVec.ofInt_mul, this])]
  rw [show (0 : BitVec n) = 0#n from rfl, BitVec.add_zero]
  congr 1
  apply List.ext_getElem <;> simp [rows2]

/-- **C82**: for a kernel which is not zero at the defaults the padding shows: here
every padding lane adds one. -/
theorem C82_padding_counts {n w : Nat} {signed : Bool}
    {Fsum : Vector (BitVec n) w → Res (BitVec n)}
    (hsum : SumOp signed Fsum) (c : Cfg) (fuel : Nat) (xs ys : List (BitVec n))
    (h : xs.length = ys.length) (hw : 0 < w) (hu : xs.length + w < c.usize)
    (hfuel : xs.length / w < fuel) :
    (do
      let z ← zip c (simdIter (w := w) xs (Packed.splat 0))
        (simdIter (w := w) ys (Packed.splat 0), ())
      let (_, acc, _) ← zsimdReduce c fuel z (Packed.splat 0) ()
        (fun _ acc (v : Vector (BitVec n) w × Vector (BitVec n) w × Unit) =>
          ok (Vector.zipWith (· + ·) acc
            (Vector.zipWith (fun x y => x * y + 1) v.1 v.2.1), ()))
      Fsum acc) =
      ok (BitVec.ofInt n (((xs.zip ys).map fun p => num signed p.1 * num signed p.2 + 1).sum +
        (((w - xs.length % w) % w : Nat) : Int))) := by
  obtain ⟨h1, h2, h3⟩ := rows2_spec c xs ys (Packed.splat (0 : BitVec n)) (Packed.splat (0 : BitVec n)) 0 h hw hu
  have := C82_zip_reduce_sum hsum h2 hw h3 (by omega) fuel
    (fun v => Vector.zipWith (fun x y => x * y + 1) v.1 v.2.1) (fun t => t.1 * t.2.1 + 1)
    (by intro v; ext i hi; simp [packRow, LawfulRest.pack]) (by rwa [h1])
  refine this.trans ?_
  congr 1
  rw [BitVec.ofInt_add]
  congr 1
  · rw [ofInt_sum_map (xs.zip ys) _ (fun p => p.1 * p.2 + 1) (by
      intro p; rw [BitVec.ofInt_add, BitVec.ofInt_mul, ofInt_num, ofInt_num]; rfl)]
    congr 1
    apply List.ext_getElem <;> simp [rows2]
  · rw [h1]
    have hrep : ∀ k, k ≤ w → ((Vector.toList (Vector.zipWith (fun a b => (a, b, ()))
        (Packed.splat (0 : BitVec n) : Vector (BitVec n) w) (Packed.splat (0 : BitVec n)))).take k).map
          (fun t : BitVec n × BitVec n × Unit => t.1 * t.2.1 + 1) = List.replicate k 1#n := by
      intro k hk
      apply List.ext_getElem
      · simp; omega
      · intro i _ _
        simp [Packed.splat]
    rw [hrep _ (Nat.le_of_lt (Nat.mod_lt _ hw))]
    generalize (w - xs.length % w) % w = k
    induction k with
    | zero => simp
    | succ k ih =>
      rw [List.replicate_succ, List.sum_cons, ih, Int.natCast_add, BitVec.ofInt_add,
        BitVec.add_comm]
      rfl

/-- The tested program, smaller: five elements, two lanes. -/
example : (do
    let z ← zip release64 (simdIter (w := 2) [2#32, 2, 2, 2, 2] (Packed.splat 0))
      (simdIter (w := 2) [3#32, 3, 3, 3, 3] (Packed.splat 0), ())
    let (_, acc, _) ← zsimdReduce release64 9 z (Packed.splat 0) ()
      (fun _ acc (v : Vector (BitVec 32) 2 × Vector (BitVec 32) 2 × Unit) =>
        ok (Vector.zipWith (· + ·) acc (Vector.zipWith (· * ·) v.1 v.2.1), ()))
    sumFallback release64 .u acc) = ok 30#32 := by decide +kernel

example : (do
    let z ← zip release64 (simdIter (w := 2) [3#8, 3, 3] (Packed.splat 0))
      (simdIter (w := 2) [1#8, 1, 7] (Packed.splat 0), ())
    let (_, acc, _) ← simdReduce release64 9 (zsimdMap z ()
      (pureFn fun (v : Vector (BitVec 8) 2 × Vector (BitVec 8) 2 × Unit) =>
        Vector.zipWith (· * ·) (Vector.zipWith (· - ·) v.1 v.2.1)
          (Vector.zipWith (· - ·) v.1 v.2.1)))
      (Packed.splat 0) () (fun _ acc v => ok (Vector.zipWith (· + ·) acc v, ()))
    sumFallback release64 .u acc) = ok 24#8 := by decide +kernel

/-! ### C83 -/

section Fill
variable {I R α γ δ : Type} {w : Nat} [SIMDSized I] [SIMDIterator I α w] [Packable α]
  [ZipRest R γ] [LawfulRest R γ δ w] {c : Cfg} {S : Nat → I} {r : R} {rows : List (α × δ)}
  {dv : Vector (α × δ) w} {more : Nat → Prop}

theorem unpad_withTail {β : Type} {w : Nat} (vs : List (Vector β w))
    (t : Option (Vector β w × Nat)) :
    lanes vs ++ (t.map fun q => q.1.toList.drop q.2).getD [] = unpad (padOf t) (withTail vs t) := by
  cases t with
  | none => simp [withTail, padOf, unpad_zero]
  | some q => simp only [withTail, padOf, Option.map_some, Option.getD_some, Option.toList_some,
      List.map_cons, List.map_nil, unpad_concat]

/-- **C83**, any arity: `zip().simd_map(F).scalar_fill(&mut buf)` with `F` lane-wise
writes one value per row from the start of the buffer and leaves the rest of it
unchanged. -/
theorem C83_zip_fill {β : Type} [Packable β]
    (hd : Driver c S (rows.map Prod.fst) (dv.map Prod.fst) more) (hw : 0 < w)
    (hr : LawfulRest.Rep c r (rows.map Prod.snd) (dv.map Prod.snd))
    (hu : rows.length + w < c.usize) (fuel : Nat) (F : Vector α w × γ → Vector β w)
    (g : α × δ → β) (hF : ∀ v : Vector (α × δ) w, F (packRow R v) = v.map g)
    (hs : 0 < Packable.size β) (hsize : Packable.size α = Packable.size β)
    (hvec : w * Packable.size α < c.usize) (hfuel : rows.length / w < fuel) (buf : List β)
    (hbuf : rows.length ≤ buf.length) :
    (do
      let z ← zip c (S 0) r
      let (_, out) ← scalarFill c fuel (zsimdMap z () (pureFn F)) buf
      ok out) = ok (rows.map g ++ buf.drop rows.length) := by
  rw [zip_ok hd hw hr]
  simp only [ok_bind]
  obtain ⟨k, hc, he⟩ := zip_emits hd hw hr hu
  obtain ⟨h1, h2, h3, h4⟩ := Driver.count_cases hw hc
  have htail : ∀ p m, (tailFrom dv rows k).map (fun q => (packRow R q.1, q.2)) = some (p, m) →
      m = w - (rows.length - k * w) ∧ k * w < rows.length := by
    intro p m hpm
    unfold tailFrom at hpm
    split at hpm
    · simp only [Option.map_some, Option.some.injEq, Prod.mk.injEq] at hpm
      exact ⟨hpm.2.symm, by assumption⟩
    · cases hpm
  have hm := zipMap_emits (pureFn F) he hs
    (by
      intro p m hpm
      have h6 : m * Packable.size α ≤ w * Packable.size α :=
        Nat.mul_le_mul_right _ (by have := htail p m hpm; omega)
      exact Nat.lt_of_le_of_lt h6 hvec) ()
  rw [mapRun_pure] at hm
  simp only [ok_bind] at hm
  have hl : ((((fullWindows w rows).take k).map (packRow R)).map F).length = k := by
    rw [List.length_map, List.length_map, List.length_take, fullWindows_length]; omega
  have hz : ∀ t, zmapTail (pureFn F) (SIMDZippedIterator.size (⟨S rows.length, r⟩ : Zip I R))
      (⟨S rows.length, r⟩ : Zip I R) () t =
      ok (t.map fun q => (F q.1, q.2), ⟨⟨S rows.length, r⟩, (), pureFn F⟩) := by
    intro t
    cases t with
    | none => rfl
    | some q =>
      have : q.2 * Packable.size α / Packable.size β = q.2 := by
        rw [hsize, Nat.mul_div_cancel _ hs]
      show ok (some (F q.1, q.2 * Packable.size α / Packable.size β), _) = _
      rw [this]; rfl
  rw [hz] at hm
  rw [zsimdMap, scalarFill_emits hm fuel buf (by omega) hw (by rw [hl]; omega) (by rw [hl]; omega)]
  · simp only [ok_bind]
    rw [unpad_withTail]
    have hw2 : withTail ((((fullWindows w rows).take k).map (packRow R)).map F)
        (((tailFrom dv rows k).map fun q => (packRow R q.1, q.2)).map fun q => (F q.1, q.2)) =
        (calls w dv rows).map (Vector.map g) := by
      rw [← withTail_tailFrom hw dv rows hc, withTail, withTail, List.map_append, List.map_map,
        show F ∘ packRow R = Vector.map g from funext hF]
      congr 1
      cases tailFrom dv rows k with
      | none => rfl
      | some q => simp [hF]
    have hp : padOf (((tailFrom dv rows k).map fun q => (packRow R q.1, q.2)).map fun q =>
        (F q.1, q.2)) = (w - rows.length % w) % w := by
      rw [← padOf_tailFrom hw dv rows hc]
      simp only [padOf]
      cases tailFrom dv rows k <;> rfl
    rw [hw2, hp, unpad_map, unpad_calls hw]
    simp [splice]
  · intro p m it' e
    simp only [ok.injEq, Prod.mk.injEq] at e
    rcases ht : (tailFrom dv rows k).map (fun q => (packRow R q.1, q.2)) with _ | q
    · rw [ht] at e; cases e.1
    · rw [ht] at e
      simp only [Option.map_some, Option.some.injEq, Prod.mk.injEq] at e
      have := htail q.1 q.2 (by rw [ht])
      rw [hl]
      omega

end Fill

/-- **C83**, the tested program (tests/kernel.rs, first part): squared differences
written into a buffer of the same length. Its sum is then that of `C82`. -/
theorem C83_squared_differences {n w : Nat} (c : Cfg) (fuel : Nat) (xs ys buf : List (BitVec n))
    (dx dy : Vector (BitVec n) w) (h : xs.length = ys.length) (hb : buf.length = xs.length)
    (hw : 0 < w) (hs : 8 ≤ n) (hu : xs.length + w < c.usize)
    (hvec : w * n < c.usize) (hfuel : xs.length / w < fuel) :
    (do
      let z ← zip c (simdIter xs dx) (simdIter ys dy, ())
      let (_, out) ← scalarFill c fuel (zsimdMap z ()
        (pureFn fun (v : Vector (BitVec n) w × Vector (BitVec n) w × Unit) =>
          Vector.zipWith (· * ·) (Vector.zipWith (· - ·) v.1 v.2.1)
            (Vector.zipWith (· - ·) v.1 v.2.1))) buf
      ok out) = ok (List.zipWith (fun x y => (x - y) * (x - y)) xs ys) := by
  have hle : w * (n / 8) ≤ w * n := Nat.mul_le_mul_left _ (Nat.div_le_self n 8)
  obtain ⟨h1, h2, h3⟩ := rows2_spec c xs ys dx dy 0 h hw hu
  have := C83_zip_fill h2 hw h3 (by omega) fuel
    (fun v => Vector.zipWith (· * ·) (Vector.zipWith (· - ·) v.1 v.2.1)
            (Vector.zipWith (· - ·) v.1 v.2.1)) (fun t => (t.1 - t.2.1) * (t.1 - t.2.1))
    (by intro v; ext i hi; simp [packRow, LawfulRest.pack]) (by simp only [Packable.size]; omega) rfl
    (by simp only [Packable.size]; omega) (by rwa [h1]) buf (by omega)
  refine this.trans ?_
  rw [h1, ← hb, List.drop_length, List.append_nil]
  congr 1
  apply List.ext_getElem <;> simp [rows2]

example : (do
    let z ← zip debug64 (simdIter (w := 2) [3#8, 3, 3] (Packed.splat 0))
      (simdIter (w := 2) [1#8, 1, 7] (Packed.splat 0), ())
    let (_, out) ← scalarFill debug64 9 (zsimdMap z ()
      (pureFn fun (v : Vector (BitVec 8) 2 × Vector (BitVec 8) 2 × Unit) =>
        Vector.zipWith (· * ·) (Vector.zipWith (· - ·) v.1 v.2.1)
          (Vector.zipWith (· - ·) v.1 v.2.1))) [9#8, 9, 9, 9]
    ok out) = ok [4#8, 4, 16, 9] := by decide +kernel

/-! ### C84 -/

/-- **C84**, a strided iterator zipped with a slice iterator (tests/zip.rs,
`zipped_heterogeneous_iters`): every `s`-th element from `k` on with the elements of
the slice, which has as many elements as there are complete groups. -/
theorem C84_stride_with_slice {α β γ : Type} [Packable α] [Packable γ] {w : Nat} (c : Cfg)
    (fuel : Nat) (l : List α) (ys : List β) {s k : Nat} (hk : k < s) (d : Vector α w)
    (dy : Vector β w) (g : α → β → γ) (h : ys.length = l.length / s) (hw : 0 < w)
    (hu : l.length + s * (w + 1) < c.usize)
    (hs : 0 < Packable.size γ) (hsize : Packable.size α = Packable.size γ)
    (hvec : w * Packable.size α < c.usize) (hfuel : l.length / s / w < fuel) :
    (do
      let z ← zip c (strideAt (⟨l⟩ : Slice α w) s k d) (simdIter ys dy, ())
      let (_, out) ← scalarCollect c fuel
        (zsimdMap z () (pureFn fun (v : Vector α w × Vector β w × Unit) =>
          Vector.zipWith g v.1 v.2.1))
      ok out) = ok ((List.ofFn (n := l.length / s) fun i =>
        g (l[k + s * i.val]'(strided_index hk i.isLt)) (ys[i.val]'(by omega))).map some) := by
  obtain ⟨S, more, hd, h0, -⟩ := strideAt_driver c l hk d hw hu
  have hle := Nat.div_le_self l.length s
  have hsw : w + 1 ≤ s * (w + 1) := Nat.le_mul_of_pos_left _ (by omega)
  have e1 : (rows2 (strided s k l hk) ys).map Prod.fst = strided s k l hk := by
    apply List.ext_getElem <;> simp [rows2, h]
  have e2 : ((rows2 (strided s k l hk) ys).map Prod.snd).map Prod.fst = ys := by
    apply List.ext_getElem <;> simp [rows2, h]
  have e3 : (Vector.zipWith (fun a b => (a, b, ())) d dy).map Prod.fst = d := by
    ext i hi; simp
  have e4 : ((Vector.zipWith (fun a b => (a, b, ())) d dy).map Prod.snd).map Prod.fst = dy := by
    ext i hi; simp
  have hlen : (rows2 (strided s k l hk) ys).length = l.length / s := by simp [rows2, h]
  have := C21_zip_general (c := c) (S := S) (more := more)
    (r := ((simdIter ys dy, ()) : SIMDIter (Slice β w) β w × Unit))
    (rows := rows2 (strided s k l hk) ys) (dv := Vector.zipWith (fun a b => (a, b, ())) d dy)
    (by rw [e1, e3]; exact hd) hw
    (by
      refine ⟨?_, trivial⟩
      rw [e2, e4]
      exact repIter_simdIter c ys 0 dy hw (by omega))
    (by omega) fuel (fun v => Vector.zipWith g v.1 v.2.1) (fun t => g t.1 t.2.1)
    (by intro v; ext i hi; simp [packRow, LawfulRest.pack]) hs hsize hvec (by rwa [hlen])
  rw [h0] at this
  refine this.trans ?_
  congr 2
  apply List.ext_getElem
  · simp [hlen]
  · intro i h1 h2
    simp [rows2, strided_getElem]

/-- **C84**, a slice iterator zipped with a strided iterator. -/
theorem C84_slice_with_stride {α β γ : Type} [Packable α] [Packable β] [Packable γ] {w : Nat}
    (c : Cfg) (fuel : Nat) (l : List α) (ys : List β) {s k : Nat} (hk : k < s) (d : Vector α w)
    (dy : Vector β w) (g : β → α → γ) (h : ys.length = l.length / s) (hw : 0 < w)
    (hu : l.length + s * (w + 1) < c.usize)
    (hs : 0 < Packable.size γ) (hsize : Packable.size β = Packable.size γ)
    (hvec : w * Packable.size β < c.usize) (hfuel : l.length / s / w < fuel) :
    (do
      let z ← zip c (simdIter ys dy) (strideAt (⟨l⟩ : Slice α w) s k d, ())
      let (_, out) ← scalarCollect c fuel
        (zsimdMap z () (pureFn fun (v : Vector β w × Vector α w × Unit) =>
          Vector.zipWith g v.1 v.2.1))
      ok out) = ok ((List.ofFn (n := l.length / s) fun i =>
        g (ys[i.val]'(by omega)) (l[k + s * i.val]'(strided_index hk i.isLt))).map some) := by
  have hle := Nat.div_le_self l.length s
  have hsw : w + 1 ≤ s * (w + 1) := Nat.le_mul_of_pos_left _ (by omega)
  have e1 : (rows2 ys (strided s k l hk)).map Prod.fst = ys := by
    apply List.ext_getElem <;> simp [rows2, h]
  have e2 : ((rows2 ys (strided s k l hk)).map Prod.snd).map Prod.fst = strided s k l hk := by
    apply List.ext_getElem <;> simp [rows2, h]
  have e3 : (Vector.zipWith (fun a b => (a, b, ())) dy d).map Prod.fst = dy := by
    ext i hi; simp
  have e4 : ((Vector.zipWith (fun a b => (a, b, ())) dy d).map Prod.snd).map Prod.fst = d := by
    ext i hi; simp
  have hlen : (rows2 ys (strided s k l hk)).length = l.length / s := by simp [rows2, h]
  have := C21_zip_general (c := c) (S := fun p => (⟨p, ⟨ys⟩, dy⟩ : SIMDIter (Slice β w) β w))
    (more := fun p => p + w ≤ ys.length)
    (r := ((strideAt (⟨l⟩ : Slice α w) s k d, ()) : PackedStride (Slice α w) α w × Unit))
    (rows := rows2 ys (strided s k l hk)) (dv := Vector.zipWith (fun a b => (a, b, ())) dy d)
    (by rw [e1, e3]; exact simdIter_driver (represents_slice c ys) dy hw (by omega)) hw
    (by
      refine ⟨?_, trivial⟩
      rw [e2, e4]
      exact repIter_strideAt c l hk d hw hu)
    (by omega) fuel (fun v => Vector.zipWith g v.1 v.2.1) (fun t => g t.1 t.2.1)
    (by intro v; ext i hi; simp [packRow, LawfulRest.pack]) hs hsize hvec (by rwa [hlen])
  refine this.trans ?_
  congr 2
  apply List.ext_getElem
  · simp [hlen]
  · intro i h1 h2
    simp [rows2, strided_getElem]

/-- **C84**, determinants of 3×3 matrices (tests/zip.rs, `zipped_stride_iters`): nine
strided iterators over one slice. -/
theorem C84_determinant3 {α : Type} [Packable α] {w : Nat} (mul add sub : α → α → α)
    (c : Cfg) (fuel : Nat) (l : List α) (D : Nat → Vector α w)
    (hw : 0 < w) (hs : 0 < Packable.size α) (hu : l.length + 9 * (w + 1) < c.usize)
    (hvec : w * Packable.size α < c.usize) (hfuel : l.length / 9 / w < fuel) :
    let M := Vector.zipWith (n := w) mul
    let P := Vector.zipWith (n := w) add
    let N := Vector.zipWith (n := w) sub
    (do
      let t := strideNine (⟨l⟩ : Slice α w)
        (D 0, D 1, D 2, D 3, D 4, D 5, D 6, D 7, D 8)
      let z ← zip c t.1 (t.2.1, t.2.2.1, t.2.2.2.1, t.2.2.2.2.1, t.2.2.2.2.2.1, t.2.2.2.2.2.2.1,
        t.2.2.2.2.2.2.2.1, t.2.2.2.2.2.2.2.2, ())
      let (_, out) ← scalarCollect c fuel (zsimdMap z () (pureFn fun
        (v : Vector α w × Vector α w × Vector α w × Vector α w × Vector α w × Vector α w ×
          Vector α w × Vector α w × Vector α w × Unit) =>
          let (a, b, c, d, e, f, g, h, i, _) := v
          N (N (N (P (P (M (M a e) i) (M (M b f) g)) (M (M c d) h)) (M (M c e) g)) (M (M b d) i))
            (M (M a f) h)))
      ok out) = ok ((List.ofFn (n := l.length / 9) fun q =>
        let m := fun k : Fin 9 => l[9 * q.val + k.val]'(by omega)
        sub (sub (sub (add (add (mul (mul (m 0) (m 4)) (m 8)) (mul (mul (m 1) (m 5)) (m 6)))
          (mul (mul (m 2) (m 3)) (m 7))) (mul (mul (m 2) (m 4)) (m 6)))
          (mul (mul (m 1) (m 3)) (m 8))) (mul (mul (m 0) (m 5)) (m 7))).map some) := by
  intro M P N
  let det : (Nat → α) → α := fun m =>
    sub (sub (sub (add (add (mul (mul (m 0) (m 4)) (m 8)) (mul (mul (m 1) (m 5)) (m 6)))
          (mul (mul (m 2) (m 3)) (m 7))) (mul (mul (m 2) (m 4)) (m 6)))
          (mul (mul (m 1) (m 3)) (m 8))) (mul (mul (m 0) (m 5)) (m 7))
  have key := C28_zip_strides (w := w) c 8 l D hw (by omega) fuel
    (fun x : List α => det fun k => x.getD k Packable.zero) hs rfl hvec hfuel
  have hfn : (fun
        (v : Vector α w × Vector α w × Vector α w × Vector α w × Vector α w × Vector α w ×
          Vector α w × Vector α w × Vector α w × Unit) =>
          let (a, b, c, d, e, f, g, h, i, _) := v
          N (N (N (P (P (M (M a e) i) (M (M b f) g)) (M (M c d) h)) (M (M c e) g)) (M (M b d) i))
            (M (M a f) h)) =
      laneFn (w := w) (n := 8) (fun x : List α => det fun k => x.getD k Packable.zero) := by
    funext v
    ext j hj
    simp [laneFn, PowT.toList, det, M, P, N]
    rfl
  have hchunk : (chunksExact 9 l).map (fun x : List α => det fun k => x.getD k Packable.zero) =
      List.ofFn (n := l.length / 9) fun q =>
        let m := fun k : Fin 9 => l[9 * q.val + k.val]'(by omega)
        sub (sub (sub (add (add (mul (mul (m 0) (m 4)) (m 8)) (mul (mul (m 1) (m 5)) (m 6)))
          (mul (mul (m 2) (m 3)) (m 7))) (mul (mul (m 2) (m 4)) (m 6)))
          (mul (mul (m 1) (m 3)) (m 8))) (mul (mul (m 0) (m 5)) (m 7)) := by
    apply List.ext_getElem
    · simp [chunksExact]
    · intro i h1 h2
      have hi : i < l.length / 9 := by simpa [chunksExact] using h1
      have hg : ∀ k, (hk : k < 9) → ((l.drop (i * 9)).take 9).getD k Packable.zero =
          l[9 * i + k]'(by omega) := by
        intro k hk
        rw [List.getD_eq_getElem?_getD, List.getElem?_take, if_pos hk, List.getElem?_drop,
          List.getElem?_eq_getElem (by omega), Option.getD_some]
        congr 1
        omega
      simp only [chunksExact, List.getElem_map, List.getElem_range, List.getElem_ofFn, det]
      rw [hg 0 (by omega), hg 1 (by omega), hg 2 (by omega), hg 3 (by omega), hg 4 (by omega),
        hg 5 (by omega), hg 6 (by omega), hg 7 (by omega), hg 8 (by omega)]
      rfl
  rw [← hchunk, hfn]
  exact key

/-- The test's data: `a` elements times three, `b` elements times seven. -/
example : (do
    let t := strideTwo (⟨[1#8, 2, 3, 4, 5, 6]⟩ : Slice _ 2) (#v[0#8, 0], #v[0, 0])
    let z ← zip debug64 t.2 (simdIter [7#8, 7, 7] #v[0, 0], ())
    let (_, out) ← scalarCollect debug64 9 (zsimdMap z () (pureFn fun
      (v : Vector (BitVec 8) 2 × Vector (BitVec 8) 2 × Unit) =>
        Vector.zipWith (· * ·) v.1 v.2.1))
    ok out) = ok ([14#8, 28, 42].map some) := by decide +kernel

/-- One matrix of the second test: its determinant is -12. -/
example : (do
    let z8 : Vector (BitVec 64) 2 := #v[0, 0]
    let t := strideNine (⟨[1#64, 0, 0, 0, 5, 4, 2, 3, 0]⟩ : Slice _ 2)
      (z8, z8, z8, z8, z8, z8, z8, z8, z8)
    let z ← zip debug64 t.1 (t.2.1, t.2.2.1, t.2.2.2.1, t.2.2.2.2.1, t.2.2.2.2.2.1,
      t.2.2.2.2.2.2.1, t.2.2.2.2.2.2.2.1, t.2.2.2.2.2.2.2.2, ())
    let (_, out) ← scalarCollect debug64 9 (zsimdMap z () (pureFn fun
      (v : Vector (BitVec 64) 2 × Vector (BitVec 64) 2 × Vector (BitVec 64) 2 ×
        Vector (BitVec 64) 2 × Vector (BitVec 64) 2 × Vector (BitVec 64) 2 ×
        Vector (BitVec 64) 2 × Vector (BitVec 64) 2 × Vector (BitVec 64) 2 × Unit) =>
        let M := Vector.zipWith (n := 2) fun (x y : BitVec 64) => x * y
        let P := Vector.zipWith (n := 2) fun (x y : BitVec 64) => x + y
        let N := Vector.zipWith (n := 2) fun (x y : BitVec 64) => x - y
        let (a, b, c, d, e, f, g, h, i, _) := v
        N (N (N (P (P (M (M a e) i) (M (M b f) g)) (M (M c d) h)) (M (M c e) g)) (M (M b d) i))
          (M (M a f) h)))
    ok out) = ok ([-12#64].map some) := by decide +kernel

end Faster
