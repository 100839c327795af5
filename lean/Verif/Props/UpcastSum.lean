import Verif.Props.SatSum
import Verif.Props.Staged
import Verif.Props.Sum
/-
C165: adding up `sum_upcast` over a slice.
-/
namespace Faster
open Res

variable {n w : Nat} {c : Cfg}

/-- `slice.simd_iter(d).simd_reduce(0i64, |acc, v| acc + v.sum_upcast())`, with a version `F` of `sum_upcast`
(src/intrin/sum.rs:35-47, src/arch/x86/intrin/sum.rs). -/
def sliceUpcastSum (c : Cfg) (fuel : Nat) (F : Vector (BitVec n) w → Res (BitVec 64)) (data : List (BitVec n))
    (d : Vector (BitVec n) w) : Res (BitVec 64) := do
  let (_, acc, _) ← simdReduce c fuel (simdIter data d) 0#64 () fun _ acc v => do
    let x ← F v
    let s ← addInt c .i acc x
    ok (s, ())
  ok acc

/-- A version of `sum_upcast` which returns the exact sum. -/
def UpSumOp (signed : Bool) (F : Vector (BitVec n) w → Res (BitVec 64)) : Prop :=
  ∀ v, ∃ r, F v = ok r ∧ r.toInt = listTotal signed v.toList

/-- A pass which adds up numbers in `i64`, none of whose sums overflows. -/
theorem upcast_fold {F : Vector (BitVec n) w → Res (BitVec 64)} (G : Vector (BitVec n) w → Int)
    (hF : ∀ v, ∃ r, F v = ok r ∧ r.toInt = G v) (vs : List (Vector (BitVec n) w)) : ∀ a : BitVec 64,
    (a.toInt.natAbs : Int) + (vs.map fun v => ((G v).natAbs : Int)).sum < 2 ^ 63 →
    ∃ r, vs.foldlM (fun (p : BitVec 64 × Unit) v => (do
        let x ← F v
        let s ← addInt c .i p.1 x
        ok (s, ()) : Res (BitVec 64 × Unit))) (a, ()) = ok (r, ()) ∧ r.toInt = a.toInt + (vs.map G).sum := by
  induction vs with
  | nil => intro a _; exact ⟨a, rfl, by simp⟩
  | cons v vs ih =>
    intro a h
    rw [List.map_cons, List.sum_cons] at h
    have hp := natAbs_sum_nonneg G vs
    obtain ⟨x, hx, hg⟩ := hF v
    have hr : Kind.lo 64 .i ≤ a.toInt + x.toInt ∧ a.toInt + x.toInt ≤ Kind.hi 64 .i := by
      simp only [Kind.lo, Kind.hi]; omega
    have hv : (a + x).toInt = a.toInt + x.toInt := by
      have h1 := Kind.value_ofInt .i (n := 64) (by decide) hr
      have h2 := Kind.add_eq .i a x
      simp only [Kind.value] at h1 h2
      rw [h2, h1]
    have hadd : addInt c .i a x = ok (a + x) := by
      unfold addInt overflowCheck
      exact if_pos hr
    obtain ⟨r, h1, h2⟩ := ih (a + x) (by rw [hv, hg]; omega)
    refine ⟨r, ?_, by rw [h2, hv, hg, List.map_cons, List.sum_cons]; omega⟩
    rw [List.foldlM_cons]
    simp only [hx, ok_bind, hadd]
    exact h1

theorem sliceUpcastSum_eq {F : Vector (BitVec n) w → Res (BitVec 64)} (G : Vector (BitVec n) w → Int)
    (hF : ∀ v, ∃ r, F v = ok r ∧ r.toInt = G v) (hw : 0 < w) (fuel : Nat) (data : List (BitVec n))
    (d : Vector (BitVec n) w) (hsum : ((calls w d data).map fun v => ((G v).natAbs : Int)).sum < 2 ^ 63)
    (hlen : data.length + w < c.usize) (hfuel : data.length / w < fuel) :
    ∃ r, sliceUpcastSum c fuel F data d = ok r ∧ r.toInt = ((calls w d data).map G).sum := by
  obtain ⟨r, h1, h2⟩ := upcast_fold (c := c) G hF (calls w d data) 0#64 (by simpa using hsum)
  refine ⟨r, ?_, by simpa using h2⟩
  unfold sliceUpcastSum
  rw [C03_reduce_fold c fuel data d 0#64 () _ hw hlen hfuel]
  simp only [bind_assoc, ok_bind]
  exact (congrArg (fun q => q >>= fun p => ok p.1) h1).trans rfl

theorem lanes_sums (signed : Bool) (vs : List (Vector (BitVec n) w)) :
    (vs.map fun v => listTotal signed v.toList).sum = listTotal signed (lanes vs) ∧
    (vs.map fun v => (((listTotal signed v.toList).natAbs : Nat) : Int)).sum ≤ listAbs signed (lanes vs) := by
  have hle (l : List (BitVec n)) : (listTotal signed l).natAbs ≤ listAbs signed l := by
    induction l with
    | nil => simp [listTotal, listAbs]
    | cons x l ih =>
      have h1 : listTotal signed (x :: l) = num signed x + listTotal signed l := by simp [listTotal]
      have h2 : listAbs signed (x :: l) = (num signed x).natAbs + listAbs signed l := by simp [listAbs]
      omega
  induction vs with
  | nil => simp [lanes, listTotal, listAbs]
  | cons v vs ih =>
    have := hle v.toList
    rw [List.map_cons, List.sum_cons, List.map_cons, List.sum_cons, lanes_cons, listTotal_append, listAbs_append,
      ih.1]
    omega

/-- **C165**: the exact sum of the elements and of the lanes of the default vector which fill the last vector. -/
theorem C165_sum {signed : Bool} {F : Vector (BitVec n) w → Res (BitVec 64)} (hF : UpSumOp signed F) (hw : 0 < w)
    (fuel : Nat) (data : List (BitVec n)) (d : Vector (BitVec n) w)
    (hsum : listAbs signed data + listAbs signed (padding w d data) < 2 ^ 63)
    (hlen : data.length + w < c.usize) (hfuel : data.length / w < fuel) :
    ∃ r, sliceUpcastSum c fuel F data d = ok r ∧
      r.toInt = listTotal signed data + listTotal signed (padding w d data) := by
  obtain ⟨t1, t2⟩ := lanes_calls_total signed hw d data
  obtain ⟨s1, s2⟩ := lanes_sums signed (calls w d data)
  obtain ⟨r, h1, h2⟩ := sliceUpcastSum_eq (c := c) _ hF hw fuel data d (by omega) hlen hfuel
  exact ⟨r, h1, by rw [h2, s1, t1]⟩

/-- Sums of lanes of at most 32 bits are small. -/
theorem listAbs_le (signed : Bool) (hn : n ≤ 32) (l : List (BitVec n)) : listAbs signed l ≤ l.length * 2 ^ 32 := by
  have hp : 2 ^ n ≤ 2 ^ 32 := Nat.pow_le_pow_right (by decide) hn
  induction l with
  | nil => simp [listAbs]
  | cons x l ih =>
    have h1 : listAbs signed (x :: l) = (num signed x).natAbs + listAbs signed l := by simp [listAbs]
    have h2 : (num signed x).natAbs ≤ 2 ^ 32 := by
      have := x.isLt
      cases signed with
      | false => simp only [num, Bool.false_eq_true, if_false]; omega
      | true =>
        simp only [num, if_true]
        rw [BitVec.toInt_eq_toNat_cond]
        split <;> omega
    rw [h1, List.length_cons]
    omega

/-- **C165**, partial: the exact sum of the elements for default lanes with the sum zero, for lanes of at most 32
bits and fewer than 2^31 elements. Missing: other defaults, and the versions for `i8` (`C165_i8`,
`C165_false`). -/
theorem C165_partial {signed : Bool} {F : Vector (BitVec n) w → Res (BitVec 64)} (hF : UpSumOp signed F)
    (hn : n ≤ 32) (hw : 0 < w) (fuel : Nat) (data : List (BitVec n)) (d : Vector (BitVec n) w)
    (hd : listTotal signed (padding w d data) = 0) (hsize : data.length + w < 2 ^ 31)
    (hlen : data.length + w < c.usize) (hfuel : data.length / w < fuel) :
    ∃ r, sliceUpcastSum c fuel F data d = ok r ∧ r.toInt = listTotal signed data := by
  have h1 := listAbs_le signed hn data
  have h2 := listAbs_le signed hn (padding w d data)
  have h3 : (padding w d data).length ≤ w := by
    unfold padding
    split
    · simp
    · rw [List.length_take]; simp
  obtain ⟨r, h4, h5⟩ := C165_sum (c := c) hF hw fuel data d (by omega) hlen hfuel
  exact ⟨r, h4, by rw [h5, hd]; simp⟩

/-- **C165**: right exactly if the default lanes which fill the last vector have the sum zero. -/
theorem C165_iff {signed : Bool} {F : Vector (BitVec n) w → Res (BitVec 64)} (hF : UpSumOp signed F) (hw : 0 < w)
    (fuel : Nat) (data : List (BitVec n)) (d : Vector (BitVec n) w)
    (hsum : listAbs signed data + listAbs signed (padding w d data) < 2 ^ 63)
    (hlen : data.length + w < c.usize) (hfuel : data.length / w < fuel) :
    (∃ r, sliceUpcastSum c fuel F data d = ok r ∧ r.toInt = listTotal signed data) ↔
      listTotal signed (padding w d data) = 0 := by
  obtain ⟨r, h1, h2⟩ := C165_sum (c := c) hF hw fuel data d hsum hlen hfuel
  rw [h1]
  constructor
  · rintro ⟨r', h3, h4⟩
    cases h3
    omega
  · intro h
    exact ⟨r, rfl, by omega⟩

/-- **C165**, the versions for `i8` with SSE2 and AVX2: the sum of each vector is wrapped to eight bits first. -/
theorem C165_i8 {F : Vector (BitVec 8) w → Res (BitVec 64)}
    (hF : ∀ v, F v = ok ((BitVec.ofInt 8 (total true v)).signExtend 64)) (hw : 0 < w) (fuel : Nat)
    (data : List (BitVec 8)) (d : Vector (BitVec 8) w) (hsize : data.length + w < 2 ^ 31)
    (hlen : data.length + w < c.usize) (hfuel : data.length / w < fuel) :
    ∃ r, sliceUpcastSum c fuel F data d = ok r ∧
      r.toInt = ((calls w d data).map fun v => (BitVec.ofInt 8 (total true v)).toInt).sum := by
  have hb (vs : List (Vector (BitVec 8) w)) :
      (vs.map fun v => (((BitVec.ofInt 8 (total true v)).toInt.natAbs : Nat) : Int)).sum ≤ vs.length * 128 := by
    induction vs with
    | nil => simp
    | cons v vs ih =>
      have h1 := Kind.value_bounds .i (n := 8) (by decide) (BitVec.ofInt 8 (total true v))
      simp only [Kind.lo, Kind.hi, Kind.value] at h1
      rw [List.map_cons, List.sum_cons, List.length_cons]
      omega
  have hc := hb (calls w d data)
  have hl := calls_length_le d data
  have hd := Nat.div_le_self data.length w
  exact sliceUpcastSum_eq (c := c) _ (fun v => ⟨_, hF v, by rw [BitVec.toInt_signExtend_of_le (by decide)]⟩)
    hw fuel data d (by omega) hlen hfuel

/-- **C165**: the versions which are exact in all builds. -/
theorem C165_versions (c : Cfg) :
    (∀ (k : Kind) n w, 0 < n → n ≤ 32 → w ≤ 2 ^ 31 → UpSumOp k.signed (sumUpcastFallback (n := n) (w := w) c k)) ∧
    UpSumOp false (sumUpcastU8 (w := 16) c [0, 4]) ∧ UpSumOp false (sumUpcastU8 (w := 32) c [0, 4, 8, 12]) ∧
    (∀ signed up, UpCorrect signed up → UpSumOp signed (sumUpcast16x16 c up)) ∧
    (∀ o : I8Ops 16, I8Correct o → ∀ v, sumUpcastI8 o [0, 4] v =
      ok ((BitVec.ofInt 8 (total true v)).signExtend 64)) ∧
    (∀ o : I8Ops 32, I8Correct o → ∀ v, sumUpcastI8 o [0, 4, 8, 12] v =
      ok ((BitVec.ofInt 8 (total true v)).signExtend 64)) := by
  refine ⟨fun k n w h0 hn hw v => C42_fallback c k h0 hn hw v, fun v => C42_u8x16 c v, fun v => C42_u8x32 c v,
    fun signed up hup v => C42_16x16 c signed hup v, fun o ho v => ?_, fun o ho v => ?_⟩
  · obtain ⟨r, h1, h2, -⟩ := C42_i8x16 ho v
    rw [h1, h2]
  · obtain ⟨r, h1, h2, -⟩ := C42_i8x32 ho v
    rw [h1, h2]

/-- **C165** does not hold: with the versions for `i8` the sum of sixteen eights is -128, and a default which is not
zero is added to the sum of the elements. -/
theorem C165_false (o : I8Ops 16) (ho : I8Correct o) (c : Cfg) (hc : 64 ≤ c.usize) :
    (∃ r, sliceUpcastSum c 2 (sumUpcastI8 o [0, 4]) (List.replicate 16 8#8) (Packed.splat 0) = ok r ∧
      r.toInt = -128 ∧ listTotal true (List.replicate 16 8#8) = 128) ∧
    ¬∃ r, sliceUpcastSum c 2 (sumUpcastFallback c .u) [5#8] (Packed.splat 1 : Vector (BitVec 8) 16) = ok r ∧
      r.toInt = listTotal false [5#8] := by
  constructor
  · obtain ⟨r, h1, h2⟩ := C165_i8 (c := c) ((C165_versions c).2.2.2.2.1 o ho) (by decide) 2
      (List.replicate 16 8#8) (Packed.splat 0) (by decide) (by simp; omega) (by decide)
    exact ⟨r, h1, by rw [h2]; decide +kernel, by decide⟩
  · intro h
    have := (C165_iff (c := c) ((C165_versions c).1 .u 8 16 (by decide) (by decide) (by decide)) (by decide) 2 [5#8]
      (Packed.splat 1) (by decide +kernel) (by simp; omega) (by decide)).1 h
    revert this
    decide +kernel

/-- Five elements in vectors of four lanes: 200 + 250 + 255 + 1 + 100 does not fit into eight bits. -/
example : ∃ r, sliceUpcastSum debug64 2 (sumUpcastFallback debug64 .u) [200#8, 250#8, 255#8, 1#8, 100#8]
    (Packed.splat 0 : Vector (BitVec 8) 4) = ok r ∧ r.toInt = 806 :=
  C165_partial (c := debug64) ((C165_versions debug64).1 .u 8 4 (by decide) (by decide) (by decide)) (by decide)
    (by decide) 2 _ _ (by decide +kernel) (by decide) (by decide) (by decide)

end Faster
