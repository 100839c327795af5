import Verif.Props.SoftAccumulators
import Verif.Props.FloatAccumulators
import Verif.Props.SatSum
/-
C176: saturating sums in unrolled loops with several accumulators.
-/
namespace Faster
open Res SIMDSized SIMDIterable SIMDIterator

/-- Every operation: what an unrolled loop over a slice returns, in terms of the chunks. -/
theorem unrolledAccs_slice {α A : Type} [Packable α] {w : Nat} {c : Cfg} (op : A → A → A) (e : A) (g : Vector α w → A)
    (data : List α) (d : Vector α w) (amt m fuel : Nat) (hw : 0 < w) (hlen : data.length + w < c.usize) (ha0 : 0 < amt)
    (ha : amt ≤ 8) (hfuel : data.length / w < fuel) :
    ∃ (it : _) (chunks : List (List (Vector α w))) (tail : List (Vector α w)),
      unrolledAccs c fuel amt m (simdIter (w := w) data d) op e g =
        ok (it, (tail.map g).foldl op ((chunks.foldl (zipAcc op g) (List.replicate m e)).foldl op e)) ∧
      (∀ ch ∈ chunks, ch.length ≤ amt) ∧ chunks.flatten ++ tail = calls w d data := by
  have hrep := represents_slice (w := w) c data
  have hdm := Nat.div_add_mod data.length w
  have hml := Nat.mod_lt data.length hw
  rw [Nat.mul_comm] at hdm
  have hruns := simdIter_runs hrep d hw hlen 0 (by omega)
  simp only [List.drop_zero, Nat.zero_add, Nat.sub_zero] at hruns
  have hnone := simdIter_next_none hrep (p := data.length / w * w) (d := d) (by omega) (by omega)
  obtain ⟨s', chunks, e1, e2, e3, -⟩ := accLoop_chunks (op := op) (g := g) hnone amt ha0 ha fuel _ _
    (Vector.replicate 8 Packed.default) (List.replicate m e) hruns (by rw [fullWindows_length]; exact hfuel)
  have hu : (unroll (⟨0, ⟨data⟩, d⟩ : SIMDIter (Slice α w) α w) amt : Res (Unrolled _ α w)) =
      ok ⟨⟨0, ⟨data⟩, d⟩, amt, Vector.replicate 8 Packed.default⟩ := by
    simp [unroll, ha]
  have hs : data.length / w * w < data.length → data.length / w * w = 0 ∨ w < data.length := by
    intro h
    by_cases h0 : data.length / w = 0
    · exact .inl (by rw [h0, Nat.zero_mul])
    · refine .inr ?_
      have := Nat.le_mul_of_pos_left w (Nat.pos_of_ne_zero h0)
      omega
  unfold unrolledAccs simdIter calls
  rw [hu]
  simp only [ok_bind, e1]
  rw [simdIter_end hrep (by omega) hs hlen]
  by_cases h0 : data.length % w = 0
  · rw [if_neg (by omega), if_pos h0]
    exact ⟨_, chunks, [], rfl, e3, by rw [e2]⟩
  · rw [if_pos (by omega), if_neg h0]
    exact ⟨_, chunks, [padFront d (leftover w data)], rfl, e3, by rw [e2]⟩

/-! ### Operations which are additions as long as a budget lasts -/

section
variable {A V : Type} {op : A → A → A} {g : V → A} {B φ : A → Int} {M : Int}

theorem budget_zipAcc (hB : ∀ a, 0 ≤ B a)
    (hop : ∀ a b, B a + B b ≤ M → B (op a b) ≤ B a + B b ∧ φ (op a b) = φ a + φ b) (as : List A) :
    ∀ vs : List V, vs.length ≤ as.length → (as.map B).sum + (vs.map fun v => B (g v)).sum ≤ M →
    ((zipAcc op g as vs).map B).sum ≤ (as.map B).sum + (vs.map fun v => B (g v)).sum ∧
    ((zipAcc op g as vs).map φ).sum = (as.map φ).sum + (vs.map fun v => φ (g v)).sum := by
  have hpos : ∀ l : List A, 0 ≤ (l.map B).sum := by
    intro l
    induction l with
    | nil => simp
    | cons a l ih => have := hB a; simp only [List.map_cons, List.sum_cons]; omega
  have hpos' : ∀ l : List V, 0 ≤ (l.map fun v => B (g v)).sum := by
    intro l
    have := hpos (l.map g)
    rwa [List.map_map] at this
  induction as with
  | nil =>
    intro vs h _
    cases vs with
    | nil => simp [zipAcc]
    | cons v vs => simp at h
  | cons a as ih =>
    intro vs h hM
    cases vs with
    | nil => simp [zipAcc]
    | cons v vs =>
      simp only [zipAcc, List.map_cons, List.sum_cons] at hM ⊢
      have h1 := hpos as
      have h2 := hpos' vs
      have h5 := hB a
      have h6 := hB (g v)
      obtain ⟨h3, h4⟩ := hop a (g v) (by omega)
      obtain ⟨i1, i2⟩ := ih vs (by simpa using h) (by omega)
      constructor <;> omega

theorem budget_chunks (hB : ∀ a, 0 ≤ B a)
    (hop : ∀ a b, B a + B b ≤ M → B (op a b) ≤ B a + B b ∧ φ (op a b) = φ a + φ b) (chunks : List (List V)) :
    ∀ as : List A, (∀ ch ∈ chunks, ch.length ≤ as.length) →
    (as.map B).sum + (chunks.flatten.map fun v => B (g v)).sum ≤ M →
    ((chunks.foldl (zipAcc op g) as).map B).sum ≤ (as.map B).sum + (chunks.flatten.map fun v => B (g v)).sum ∧
    ((chunks.foldl (zipAcc op g) as).map φ).sum = (as.map φ).sum + (chunks.flatten.map fun v => φ (g v)).sum := by
  induction chunks with
  | nil => intro as _ _; simp
  | cons ch chunks ih =>
    intro as hl hM
    simp only [List.flatten_cons, List.map_append, List.sum_append, List.foldl_cons] at hM ⊢
    have h2 : 0 ≤ (chunks.flatten.map fun v => B (g v)).sum := by
      generalize chunks.flatten = l
      induction l with
      | nil => simp
      | cons a l ih => have := hB (g a); simp only [List.map_cons, List.sum_cons]; omega
    obtain ⟨h3, h4⟩ := budget_zipAcc (g := g) hB hop as ch (hl ch (by simp)) (by omega)
    obtain ⟨i1, i2⟩ := ih (zipAcc op g as ch) (fun c' hc => by rw [zipAcc_length]; exact hl c' (by simp [hc])) (by omega)
    constructor <;> omega

theorem budget_foldl (hB : ∀ a, 0 ≤ B a)
    (hop : ∀ a b, B a + B b ≤ M → B (op a b) ≤ B a + B b ∧ φ (op a b) = φ a + φ b) (as : List A) :
    ∀ x : A, B x + (as.map B).sum ≤ M →
    B (as.foldl op x) ≤ B x + (as.map B).sum ∧ φ (as.foldl op x) = φ x + (as.map φ).sum := by
  induction as with
  | nil => intro x _; simp
  | cons a as ih =>
    intro x hM
    simp only [List.map_cons, List.sum_cons, List.foldl_cons] at hM ⊢
    have h2 : 0 ≤ (as.map B).sum := by
      clear ih hM
      induction as with
      | nil => simp
      | cons a l ih => have := hB a; simp only [List.map_cons, List.sum_cons]; omega
    obtain ⟨h3, h4⟩ := hop x a (by omega)
    obtain ⟨i1, i2⟩ := ih (op x a) (by omega)
    constructor <;> omega

end

/-! ### C176 -/

variable {n w : Nat} {c : Cfg}

/-- As `satSum`, in a loop over the chunks of `unroll(amt)` with `m` accumulators. -/
def satSumAccs (c : Cfg) (fuel amt m : Nat) (k : Kind)
    (F : Vector (BitVec n) w → Vector (BitVec n) w → Res (Vector (BitVec n) w))
    (data : List (BitVec n)) (d : Vector (BitVec n) w) : Res (BitVec n) := do
  let (_, acc) ← unrolledAccsM c fuel amt m (simdIter data d) F (Packed.splat 0) id
  Packed.scalarReduce acc 0 fun a x => ok (satAddScalar k a x)

/-- All versions of `saturating_add` are the scalar one in every lane. -/
theorem satAddOp_eq {k : Kind} (hn : 0 < n) {F : Vector (BitVec n) w → Vector (BitVec n) w → Res (Vector (BitVec n) w)}
    (hF : SatAddOp k.signed F) (a b : Vector (BitVec n) w) : F a b = ok (a.zipWith (satAddScalar k) b) := by
  obtain ⟨v, h1, h2⟩ := hF a b
  rw [h1]
  congr 1
  ext1 i hi
  rw [Vector.getElem_zipWith]
  exact num_inj k.signed ((h2 i hi).trans (satAddScalar_num k hn _ _).symm)

theorem unrolledAccsM_ok {T α A : Type} {w : Nat} [SIMDSized T] [SIMDIterator T α w] [Packable α] {op : A → A → Res A}
    {op' : A → A → A} {g : Vector α w → A} (h : ∀ a b, op a b = ok (op' a b)) (e : A) (fuel amt m : Nat) (it : T)
    {r : T × A} (hr : unrolledAccs c fuel amt m it op' e g = ok r) : unrolledAccsM c fuel amt m it op e g = ok r := by
  obtain ⟨it', b⟩ := r
  rcases C173_tracks (P := False) (φ := id) (op := op) (op' := op') (g := g)
    (fun a b => .inl ⟨_, h a b, rfl⟩) e fuel amt m it it' b hr with ⟨⟨it2, a⟩, e1, e2⟩ | ⟨h, -⟩
  · rw [e1]; exact congrArg ok e2
  · exact h.elim

/-- **C176**, unsigned lanes: any number of accumulators gives what one gives, the clamped sum (C158). -/
theorem C176_unsigned (hw : 0 < w) (hn : 0 < n)
    {F : Vector (BitVec n) w → Vector (BitVec n) w → Res (Vector (BitVec n) w)} (hF : SatAddOp false F)
    (fuel amt m : Nat) (data : List (BitVec n)) (d : Vector (BitVec n) w) (ha0 : 0 < amt) (ha : amt ≤ 8) (hm : amt ≤ m)
    (hlen : data.length + w < c.usize) (hfuel : data.length / w < fuel) :
    satSumAccs c fuel amt m .u F data d = satSum c fuel .u F data d ∧
    ∃ r, satSumAccs c fuel amt m .u F data d = ok r ∧
      num false r = nearest false n (listTotal false data + listTotal false (padding w d data)) := by
  suffices h : satSumAccs c fuel amt m .u F data d = satSum c fuel .u F data d by
    exact ⟨h, by rw [h]; exact C158_unsigned hw hn hF fuel data d hlen hfuel⟩
  have hnum : ∀ a b : BitVec n, num false (satAddScalar .u a b) = min (num false a + num false b) (2 ^ n - 1) := by
    intro a b
    have h1 := satAddScalar_num .u hn a b
    have h2 : 0 ≤ num false a := by simp [num]
    have h3 : 0 ≤ num false b := by simp [num]
    simp only [Kind.signed, nearest, Bool.false_eq_true, if_false] at h1
    have hM : (0 : Int) < 2 ^ n := by positivity
    omega
  have hbound : ∀ a : BitVec n, 0 ≤ num false a ∧ num false a ≤ 2 ^ n - 1 := by
    intro a
    have h := a.isLt
    have e : ((2 ^ n : Nat) : Int) = 2 ^ n := by push_cast; rfl
    simp only [num, Bool.false_eq_true, if_false]
    omega
  have hassoc : ∀ a b c : BitVec n, satAddScalar .u (satAddScalar .u a b) c = satAddScalar .u a (satAddScalar .u b c) := by
    intro a b c
    apply num_inj false
    have h1 := hbound a
    have h2 := hbound b
    have h3 := hbound c
    simp only [hnum]
    omega
  have hcomm : ∀ a b : BitVec n, satAddScalar .u a b = satAddScalar .u b a := by
    intro a b
    apply num_inj false
    simp only [hnum]
    omega
  have hzero : ∀ a : BitVec n, satAddScalar .u 0 a = a := by
    intro a
    apply num_inj false
    have h1 := hbound a
    have h0 : num false (0 : BitVec n) = 0 := by simp [num]
    simp only [hnum, h0]
    omega
  have hF' := satAddOp_eq (k := .u) hn hF
  have h3 := C03_reduce_foldl c fuel data d (Packed.splat 0)
    (fun (a v : Vector (BitVec n) w) => a.zipWith (satAddScalar .u) v) hw hlen hfuel
  have h4 := C170_slice (c := c) (op := fun a b : Vector (BitVec n) w => a.zipWith (satAddScalar .u) b)
    (e := Packed.splat 0) (g := id) (by intro x y z; ext i hi; simp [hassoc])
    (by intro x y; ext i hi; simp [hcomm x[i]])
    (by ext1 i hi; rw [Vector.getElem_zipWith, Packed.splat, Vector.getElem_replicate, hzero]) data d 0 amt m
    fuel hw hlen (by omega) ha0 ha hm (by simpa using hfuel)
  unfold simdIter at h3
  simp only [id] at h4
  rw [h3] at h4
  have h5 := unrolledAccsM_ok (g := id) hF' (Packed.splat 0) fuel amt m _ h4
  unfold satSumAccs satSum simdIter
  simp only [hF', ok_bind]
  rw [h3, h5]
  rfl

/-- **C176**, signed lanes, partial: the exact sum if the sum of the absolute values fits. Missing: other slices, where
the result depends on the number of accumulators (`C176_false`). -/
theorem C176_signed_partial (hw : 0 < w) (hn : 0 < n)
    {F : Vector (BitVec n) w → Vector (BitVec n) w → Res (Vector (BitVec n) w)} (hF : SatAddOp true F)
    (fuel amt m : Nat) (data : List (BitVec n)) (d : Vector (BitVec n) w)
    (hB : listAbs true data + listAbs true (padding w d data) ≤ 2 ^ (n - 1) - 1)
    (ha0 : 0 < amt) (ha : amt ≤ 8) (hm : amt ≤ m) (hlen : data.length + w < c.usize) (hfuel : data.length / w < fuel) :
    ∃ r, satSumAccs c fuel amt m .i F data d = ok r ∧
      num true r = listTotal true data + listTotal true (padding w d data) := by
  let B : Vector (BitVec n) w → Int := fun v => listAbs true v.toList
  let φ : Vector (BitVec n) w → Int := fun v => listTotal true v.toList
  let op : Vector (BitVec n) w → Vector (BitVec n) w → Vector (BitVec n) w := fun a b => a.zipWith (satAddScalar .i) b
  have hF' : ∀ a b, F a b = ok (op a b) := satAddOp_eq (k := .i) hn hF
  have hpos : ∀ a, 0 ≤ B a := fun a => listAbs_nonneg _
  have hop : ∀ a b, B a + B b ≤ 2 ^ (n - 1) - 1 → B (op a b) ≤ B a + B b ∧ φ (op a b) = φ a + φ b := by
    intro a b h
    have el : lanes [b] = b.toList := by simp [lanes]
    obtain ⟨acc, h1, h2, h3⟩ := signed_fold hF [b] a (by rw [el]; exact h)
    rw [el] at h2 h3
    simp only [List.foldlM_cons, List.foldlM_nil, hF', ok_bind] at h1
    have h1 : op a b = acc := congrArg Prod.fst (Res.ok.inj h1)
    rw [h1]
    exact ⟨h3, h2⟩
  obtain ⟨it, chunks, tail, e1, e2, e3⟩ := unrolledAccs_slice (c := c) op (Packed.splat 0) id data d amt m fuel hw hlen ha0
    ha hfuel
  have ht := lanes_calls_total true hw d data
  have hlanes : ∀ l : List (Vector (BitVec n) w), listAbs true (lanes l) = (l.map fun v => B (id v)).sum ∧
      listTotal true (lanes l) = (l.map fun v => φ (id v)).sum := by
    intro l
    induction l with
    | nil => simp [lanes, listAbs, listTotal]
    | cons v l ih =>
      rw [lanes_cons, listAbs_append, listTotal_append, ih.1, ih.2]
      exact ⟨rfl, rfl⟩
  rw [(hlanes _).1, (hlanes _).2, ← e3] at ht
  simp only [List.map_append, List.sum_append] at ht
  have hz : B (Packed.splat 0) = 0 ∧ φ (Packed.splat 0) = 0 := by
    constructor
    · simp [B, listAbs, Packed.splat, num]
    · simp [φ, listTotal, Packed.splat, num]
  have hrep : ((List.replicate m (Packed.splat 0 : Vector (BitVec n) w)).map B).sum = 0 ∧
      ((List.replicate m (Packed.splat 0 : Vector (BitVec n) w)).map φ).sum = 0 := by
    simp only [List.map_replicate, hz.1, hz.2, List.sum_replicate, smul_zero, and_self]
  have htail : 0 ≤ (tail.map fun v => B (id v)).sum := by rw [← (hlanes tail).1]; exact listAbs_nonneg _
  obtain ⟨b1, b2⟩ := budget_chunks (g := id) hpos hop chunks (List.replicate m (Packed.splat 0))
    (fun ch hch => by rw [List.length_replicate]; exact (e2 ch hch).trans hm) (by omega)
  obtain ⟨b3, b4⟩ := budget_foldl hpos hop (chunks.foldl (zipAcc op id) (List.replicate m (Packed.splat 0)))
    (Packed.splat 0) (by omega)
  have em : (tail.map id).map B = tail.map (fun v => B (id v)) ∧ (tail.map id).map φ = tail.map (fun v => φ (id v)) := by
    simp
  obtain ⟨b5, b6⟩ := budget_foldl hpos hop (tail.map id) ((chunks.foldl (zipAcc op id) (List.replicate m (Packed.splat 0))).foldl op
    (Packed.splat 0)) (by rw [em.1]; omega)
  rw [em.1] at b5
  rw [em.2] at b6
  set acc := (tail.map id).foldl op ((chunks.foldl (zipAcc op id) (List.replicate m (Packed.splat 0))).foldl op
    (Packed.splat 0)) with hacc
  have h0 : num true (0 : BitVec n) = 0 := by simp [num]
  have hBa : listAbs true acc.toList ≤ 2 ^ (n - 1) - 1 := by
    show B acc ≤ _
    omega
  obtain ⟨r, h3, h4⟩ := signed_scalar hn acc.toList 0 (by rw [h0]; simpa using hBa)
  refine ⟨r, ?_, ?_⟩
  · unfold satSumAccs
    rw [unrolledAccsM_ok (g := id) hF' (Packed.splat 0) fuel amt m _ e1]
    simp only [ok_bind, Packed.scalarReduce]
    rw [scalarReduceLoop_ok _ _ w 0 0 (by omega), List.drop_zero, h3]
  · rw [h4, h0]
    show 0 + φ acc = _
    omega

/-- **C176** is false for signed lanes: the sum of 100, 100, -100 and -100 with one lane is -73 with one accumulator, zero
with two. -/
theorem C176_false :
    let F := fun a b : Vector (BitVec 8) 1 => (ok (a.zipWith (satAddScalar .i) b) : Res _)
    satSumAccs release64 9 1 1 .i F [100#8, 100, -100, -100] #v[0] = ok (-73) ∧
    satSumAccs release64 9 2 2 .i F [100#8, 100, -100, -100] #v[0] = ok 0 := by decide +kernel

/-- The hypotheses can be met: `u8x16` and `i8x16` with SSE2. -/
example : ∃ r, satSumAccs release64 9 2 2 .u (w := 16) (binaryInstr .mm_adds_epu8) [200#8, 100, 50] (Packed.splat 0) =
    ok r ∧ num false r = nearest false 8 (listTotal false [200#8, 100, 50] +
      listTotal false (padding 16 (Packed.splat 0) [200#8, 100, 50])) :=
  (C176_unsigned (n := 8) (w := 16) (by decide) (by decide) ((C158_versions release64).1 satAddRows[0] (by simp)) 9 2 2 _ _
    (by decide) (by decide) (by decide) (by decide) (by decide)).2

example : ∃ r, satSumAccs release64 9 2 3 .i (w := 16) (binaryInstr .mm_adds_epi8) [50#8, -20, 30] (Packed.splat 0) =
    ok r ∧ num true r = listTotal true [50#8, -20, 30] +
      listTotal true (padding 16 (Packed.splat 0) [50#8, -20, 30]) :=
  C176_signed_partial (n := 8) (w := 16) (by decide) (by decide) ((C158_versions release64).1 satAddRows[1] (by simp)) 9
    2 3 _ _ (by decide) (by decide) (by decide) (by decide) (by decide) (by decide)

end Faster
