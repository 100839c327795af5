import Verif.PatternTests
import Verif.Props.IntTests
import Verif.Props.Docs
import Verif.Props.Tests
import Verif.Props.Transmute
import Verif.Props.Merge
/-
C129: the unit tests of merges, `swap_bytes`, `flip`, `eq_mask`, `ne_mask`, `sqrt`, `product` and
the reinterpretations, with any constants in place of the literals.
-/
namespace Faster
open Res

variable {n w : Nat}

/-! ### `assert_eq!` of a vector with itself -/

open Classical in
/-- A float vector equals itself exactly if no lane is NaN. -/
theorem assertEq_self (hn : n = 32 ∨ n = 64) (v : Vector (BitVec n) w) :
    assertEq v v = if ∀ i (h : i < w), ieee v[i] ≠ .nan then ok () else panic := by
  unfold assertEq
  split
  · rename_i h
    apply assert_ok
    rw [Vector.all_eq_true]
    intro i hi
    simpa [feq_iff hn] using h i hi
  · rename_i h
    unfold assert
    rw [if_neg]
    intro ha
    rw [Vector.all_eq_true] at ha
    apply h
    intro i hi
    have := ha i hi
    simp only [Vector.getElem_zip] at this
    exact ((feq_iff hn _ _).1 this).1

open Classical in
theorem assertEq_interleave (hn : n = 32 ∨ n = 64) (hw : 2 ≤ w) (x y : BitVec n) :
    assertEq (interleave x y : Vector (BitVec n) w) (interleave x y) =
      if ieee x ≠ .nan ∧ ieee y ≠ .nan then ok () else panic := by
  rw [assertEq_self hn]
  congr 1
  apply propext
  constructor
  · intro h
    have h0 := h 0 (by omega)
    have h1 := h 1 (by omega)
    simpa [interleave] using And.intro h0 h1
  · rintro ⟨h1, h2⟩ i hi
    simp only [interleave, Vector.getElem_ofFn]
    split
    · exact h1
    · exact h2

theorem assertEq_two (hn : n = 32 ∨ n = 64) {x y : BitVec n} (hx : ieee x ≠ .nan) (hy : ieee y ≠ .nan)
    (p : Fin w → Bool) :
    assertEq (Vector.ofFn fun i => if p i then x else y) (Vector.ofFn fun i => if p i then x else y) =
      ok () := by
  rw [assertEq_self hn, if_pos]
  intro i hi
  simp only [Vector.getElem_ofFn]
  cases p ⟨i, hi⟩
  · exact hy
  · exact hx

/-! ### Merges -/

/-- The versions of `merge_interleaved` and `merge_halves`: blends or fallbacks. -/
def mergeInterleavedOf (c : Cfg) (blend : Bool) (a b : Vector (BitVec n) w) : Res (Vector (BitVec n) w) :=
  if blend then ok (mergeInterleavedBlend a b) else mergeInterleavedFallback c a b

def mergeHalvesOf (c : Cfg) (blend : Bool) (a b : Vector (BitVec n) w) : Res (Vector (BitVec n) w) :=
  if blend then ok (mergeHalvesBlend a b) else mergeHalvesFallback c a b

/-- The versions of `merge_partitioned`. -/
def mergePartitionedOf (c : Cfg) (blend : Bool) (a b : Vector (BitVec n) w) (off : Nat) :
    Res (Vector (BitVec n) w) :=
  if blend then mergePartitionedBlend c a b off else Packed.mergePartitioned c a b off

/-- The versions of `partition`. -/
def partitionOf (c : Cfg) (blend : Bool) (x y : BitVec n) (off : Nat) : Res (Vector (BitVec n) w) :=
  if blend then partitionBlend c x y off else partitionTable x y off

theorem mergeLoop_pass {same : Vector (BitVec n) w → Vector (BitVec n) w → Res Unit}
    {mp : Vector (BitVec n) w → Vector (BitVec n) w → Nat → Res (Vector (BitVec n) w)}
    {part : BitVec n → BitVec n → Nat → Res (Vector (BitVec n) w)} {x y : BitVec n}
    (h1 : ∀ i, i < w → ∃ v, mp (Packed.splat x) (Packed.splat y) i = ok v ∧ part x y i = ok v ∧
      same v v = ok ())
    (h2 : ∀ i, i < w → ∃ v, mp (Packed.splat y) (Packed.splat x) i = ok v ∧ part y x i = ok v ∧
      same v v = ok ()) (k i : Nat) (hk : i + k ≤ w) :
    mergeTestLoop same mp part x y k i = ok () := by
  induction k generalizing i with
  | zero => rfl
  | succ k ih =>
    obtain ⟨u, a1, a2, a3⟩ := h1 i (by omega)
    obtain ⟨v, b1, b2, b3⟩ := h2 i (by omega)
    unfold mergeTestLoop
    rw [a1, a2]
    simp only [ok_bind, a3]
    rw [b1, b2]
    simp only [ok_bind, b3]
    exact ih (i + 1) (by omega)

theorem mergeOf_facts (c : Cfg) (hc : 64 < c.usize) (r : MergeRow) (hr : r ∈ mergeRows ++ mergeRowsUnknown)
    (b : Bool) (x y : BitVec (8 * r.size)) :
    mergeInterleavedOf (w := r.width) c b (Packed.splat x) (Packed.splat y) = ok (interleave x y) ∧
    mergeHalvesOf (w := r.width) c b (Packed.splat x) (Packed.splat y) = ok (halfs x y) ∧
    ∀ i, i < r.width →
      mergePartitionedOf (w := r.width) c b (Packed.splat x) (Packed.splat y) i =
        ok (Vector.ofFn fun j => if decide (j.val < i) then x else y) ∧
      partitionOf (w := r.width) c b x y i = ok (Vector.ofFn fun j => if decide (j.val < i) then x else y) := by
  obtain ⟨-, -, -, h1, h2, h3⟩ := C35_rows r hr
  have hs : 0 < r.size := by
    rcases Nat.eq_zero_or_pos r.size with h | h
    · rw [h] at h2; simp at h2
    · exact h
  obtain ⟨a1, a2, a3⟩ := C115_merge_fallback (α := BitVec (8 * r.size)) (w := r.width) c h1 x y
  obtain ⟨b1, b2, b3⟩ := C115_merge_blend (w := r.width) c rfl hs h2 h3 hc x y
  have ht : ∀ i, i < r.width → partitionTable (w := r.width) x y i =
      ok (Vector.ofFn fun j => if decide (j.val < i) then x else y) := by
    intro i hi
    simp [partitionTable, decide_eq_true (show i ≤ r.width by omega)]
  cases b
  · refine ⟨a2, a1, fun i hi => ⟨?_, ht i hi⟩⟩
    exact (a3 i hi).trans (ht i hi)
  · refine ⟨by rw [← b2]; rfl, by rw [← b1]; rfl, fun i hi => ⟨?_, ?_⟩⟩
    · exact (b3 i (by omega)).trans (ht i hi)
    · exact ((C37_partition c rfl hs h2 h3 hc x y (show i ≤ r.width by omega)).1).trans (ht i hi)

theorem mergeRows_width : ∀ r ∈ mergeRows ++ mergeRowsUnknown, 2 ≤ r.width := by decide +kernel

/-- C129: the merge tests of integer types pass for any two constants, with and without the blend
instructions, in every combination of versions. -/
theorem C129_merge (c : Cfg) (hc : 64 < c.usize) (r : MergeRow) (hr : r ∈ mergeRows ++ mergeRowsUnknown)
    (b1 b2 b3 b4 : Bool) (x y : BitVec (8 * r.size)) :
    mergeTest (w := r.width) assertSame (mergeInterleavedOf c b1) (mergeHalvesOf c b2)
      (mergePartitionedOf c b3) (partitionOf c b4) x y = ok () := by
  have e := fun b x y => (mergeOf_facts c hc r hr b x y).1
  have f := fun b x y => (mergeOf_facts c hc r hr b x y).2.1
  have g := fun b x y => (mergeOf_facts c hc r hr b x y).2.2
  unfold mergeTest
  simp only [e, f, ok_bind, assertSame_self]
  exact mergeLoop_pass (fun i hi => ⟨_, (g b3 x y i hi).1, (g b4 x y i hi).2, assertSame_self _⟩)
    (fun i hi => ⟨_, (g b3 y x i hi).1, (g b4 y x i hi).2, assertSame_self _⟩) _ _ (by omega)

open Classical in
/-- C129: the merge tests of float types pass exactly for constants other than NaN. -/
theorem C129_merge_float (c : Cfg) (hc : 64 < c.usize) (r : MergeRow)
    (hr : r ∈ mergeRows ++ mergeRowsUnknown) (hn : r.size = 4 ∨ r.size = 8) (b1 b2 b3 b4 : Bool)
    (x y : BitVec (8 * r.size)) :
    mergeTest (w := r.width) assertEq (mergeInterleavedOf c b1) (mergeHalvesOf c b2)
      (mergePartitionedOf c b3) (partitionOf c b4) x y =
      if ieee x ≠ .nan ∧ ieee y ≠ .nan then ok () else panic := by
  have hn' : 8 * r.size = 32 ∨ 8 * r.size = 64 := by omega
  have e := fun b x y => (mergeOf_facts c hc r hr b x y).1
  have f := fun b x y => (mergeOf_facts c hc r hr b x y).2.1
  have g := fun b x y => (mergeOf_facts c hc r hr b x y).2.2
  have hw := mergeRows_width r hr
  unfold mergeTest
  simp only [e, f, ok_bind]
  rw [assertEq_interleave hn' hw]
  by_cases h : ieee x ≠ .nan ∧ ieee y ≠ .nan
  · obtain ⟨hx, hy⟩ := h
    rw [if_pos ⟨hx, hy⟩, assertEq_interleave hn' hw, if_pos ⟨hy, hx⟩]
    have h1 : ∀ a b : BitVec (8 * r.size), ieee a ≠ .nan → ieee b ≠ .nan →
        assertEq (halfs a b : Vector _ r.width) (halfs a b) = ok () := by
      intro a b ha hb
      have := assertEq_two hn' (w := r.width) ha hb (fun i => decide (i.val < r.width / 2))
      simpa [halfs] using this
    simp only [ok_bind, h1 x y hx hy, h1 y x hy hx]
    exact mergeLoop_pass
      (fun i hi => ⟨_, (g b3 x y i hi).1, (g b4 x y i hi).2, assertEq_two hn' hx hy _⟩)
      (fun i hi => ⟨_, (g b3 y x i hi).1, (g b4 y x i hi).2, assertEq_two hn' hy hx _⟩) _ _ (by omega)
  · rw [if_neg h]
    rfl

/-! ### swap_bytes and flip -/

/-- C129: the test of `swap_bytes` passes for any two constants, in every version. -/
theorem C129_swap_bytes :
    (∀ r ∈ swapRows, ∀ x y : BitVec (8 * r.size),
      swapTest (w := r.width) (swapBytesFallback r.idx) x y = ok () ∧
      swapTest (w := r.width) (fun v => ok (swapBytesShuffle r.ctl v)) x y = ok ()) ∧
    (∀ r ∈ swapRows512 ++ swapRowsUnknown, ∀ x y : BitVec (8 * r.size),
      swapTest (w := r.width) (swapBytesFallback r.idx) x y = ok ()) := by
  have key : ∀ {n w} (x y : BitVec n), (interleave x y : Vector _ w).map swapBytesScalar =
      interleave (swapBytesScalar x) (swapBytesScalar y) := by
    intro n w x y
    apply Vector.ext; intro i hi
    simp only [interleave, Vector.getElem_map, Vector.getElem_ofFn]
    split <;> rfl
  refine ⟨fun r hr x y => ?_, fun r hr x y => ?_⟩
  · obtain ⟨h1, h2⟩ := C38_swap_bytes.1 r hr (interleave x y)
    unfold swapTest
    simp only [h1, h2, ok_bind, key, assertSame_self, and_self]
  · unfold swapTest
    rw [C38_swap_bytes.2 r hr, key]
    simp only [ok_bind, assertSame_self]

theorem flipRows_width : ∀ r ∈ flipRows ++ flipRows512, 2 ≤ r.width := by decide +kernel

open Classical in
/-- C129: the test of `flip` passes for any two integers; for any two floats other than NaN and
for no others. -/
theorem C129_flip :
    (∀ r ∈ flipRows, ∀ x y : BitVec (8 * r.size), ∀ flip ∈ ([flipFallback r.idx,
        fun v => ok (flipShuffle r.ctl v)] : List (Vector _ r.width → Res (Vector _ r.width))),
      flipTest assertSame flip x y = ok () ∧
      (r.size = 4 ∨ r.size = 8 → flipTest assertEq flip x y =
        if ieee x ≠ .nan ∧ ieee y ≠ .nan then ok () else panic)) ∧
    (∀ r ∈ flipRows512, ∀ x y : BitVec (8 * r.size),
      flipTest (w := r.width) assertSame (flipFallback r.idx) x y = ok () ∧
      (r.size = 4 ∨ r.size = 8 → flipTest (w := r.width) assertEq (flipFallback r.idx) x y =
        if ieee x ≠ .nan ∧ ieee y ≠ .nan then ok () else panic)) := by
  have key : ∀ {n w : Nat} (_ : 2 ≤ w) (x y : BitVec n) (flip : Vector (BitVec n) w → Res (Vector (BitVec n) w)),
      flip (interleave x y) = ok (interleave y x) → flipTest assertSame flip x y = ok () ∧
      (n = 32 ∨ n = 64 → flipTest assertEq flip x y =
        if ieee x ≠ .nan ∧ ieee y ≠ .nan then ok () else panic) := by
    intro n w hw x y flip h
    unfold flipTest
    rw [h]
    refine ⟨assertSame_self _, fun hn => ?_⟩
    rw [ok_bind, assertEq_interleave hn hw]
    simp only [and_comm]
  refine ⟨fun r hr x y flip hf => ?_, fun r hr x y => ?_⟩
  · have hw := flipRows_width r (List.mem_append_left _ hr)
    have h := key hw x y flip (by
      simp only [List.mem_cons, List.not_mem_nil, or_false] at hf
      rcases hf with rfl | rfl
      · exact (C115_flip.1 r hr x y).1
      · simp only [(C115_flip.1 r hr x y).2])
    exact ⟨h.1, fun hs => h.2 (by omega)⟩
  · have hw := flipRows_width r (List.mem_append_right _ hr)
    have h := key hw x y (flipFallback r.idx) (C115_flip.2 r hr x y)
    exact ⟨h.1, fun hs => h.2 (by omega)⟩

/-! ### eq_mask and ne_mask -/

/-- The lane of an equality mask, given a decision for every pair of lanes. -/
theorem eqTest_exact {eq : Vector (BitVec n) w → Vector (BitVec n) w → Res (Vector (BitVec n) w)}
    (e : BitVec n → BitVec n → Prop) [∀ a b, Decidable (e a b)] (h0 : 0 < n) (hw : 2 ≤ w)
    (he : ∀ a b, ∃ v, eq a b = ok v ∧ ∀ i (h : i < w), v[i] = maskOf n (e a[i] b[i])) (x y : BitVec n) :
    eqTest eq x y = if e x x ∧ e y y ∧ ¬ e x y ∧ ¬ e y x then ok () else panic := by
  have hne : BitVec.allOnes n ≠ 0#n := by
    intro h
    have := congrArg (·.getLsbD 0) h
    simp [h0] at this
  have hm : ∀ (p : Prop) [Decidable p], maskOf n p = 0#n ↔ ¬ p := by
    intro p _; unfold maskOf; by_cases h : p <;> simp [h, hne]
  have hm' : ∀ (p : Prop) [Decidable p], maskOf n p = BitVec.allOnes n ↔ p := by
    intro p _; unfold maskOf; by_cases h : p <;> simp [h, hne.symm]
  have hx : ∀ (p : Prop) [Decidable p], maskOf n p ^^^ BitVec.allOnes n = maskOf n (¬ p) := by
    intro p _; unfold maskOf; by_cases h : p <;> simp [h]
  obtain ⟨u, a1, a2⟩ := he (halfs x y) (Packed.splat y)
  obtain ⟨v, b1, b2⟩ := he (interleave x y) (Packed.splat x)
  have a3 : u = halfs (maskOf n (e x y)) (maskOf n (e y y)) := by
    apply Vector.ext; intro i hi
    rw [a2 i hi, splat_get]
    simp only [halfs, Vector.getElem_ofFn]
    split <;> rfl
  have b3 : v = interleave (maskOf n (e x x)) (maskOf n (e y x)) := by
    apply Vector.ext; intro i hi
    rw [b2 i hi, splat_get]
    simp only [interleave, Vector.getElem_ofFn]
    split <;> rfl
  have ho : ∀ i (h : i < w), (ones : Vector (BitVec n) w)[(⟨i, h⟩ : Fin w)] = BitVec.allOnes n := by
    intro i h; exact splat_get _ h
  have a4 : neMask u = halfs (maskOf n (¬ e x y)) (maskOf n (¬ e y y)) := by
    apply Vector.ext; intro i hi
    unfold neMask
    rw [Vector.getElem_ofFn, ho i hi, a3]
    simp only [halfs, Fin.getElem_fin, Vector.getElem_ofFn]
    split
    · exact hx _
    · exact hx _
  have b4 : neMask v = interleave (maskOf n (¬ e x x)) (maskOf n (¬ e y x)) := by
    apply Vector.ext; intro i hi
    unfold neMask
    rw [Vector.getElem_ofFn, ho i hi, b3]
    simp only [interleave, Fin.getElem_fin, Vector.getElem_ofFn]
    split
    · exact hx _
    · exact hx _
  have hh : ∀ a b p q : BitVec n, (halfs a b : Vector (BitVec n) w) = halfs p q ↔ a = p ∧ b = q := by
    intro a b p q
    constructor
    · intro h
      have h0 := congrArg (fun v : Vector (BitVec n) w => v[0]'(by omega)) h
      have h1 := congrArg (fun v : Vector (BitVec n) w => v[w - 1]'(by omega)) h
      simp only [halfs, Vector.getElem_ofFn, if_pos (show 0 < w / 2 by omega),
        if_neg (show ¬ w - 1 < w / 2 by omega)] at h0 h1
      exact ⟨h0, h1⟩
    · rintro ⟨rfl, rfl⟩; rfl
  have hi : ∀ a b p q : BitVec n, (interleave a b : Vector (BitVec n) w) = interleave p q ↔ a = p ∧ b = q :=
    fun a b p q => ⟨interleave_inj hw, by rintro ⟨rfl, rfl⟩; rfl⟩
  unfold eqTest
  rw [a1, b1]
  simp only [ok_bind, assertSame_eq, a4, b4]
  simp only [a3, b3, hh, hi, hm, hm', not_not]
  by_cases c1 : e x x <;> by_cases c2 : e y y <;> by_cases c3 : e x y <;> by_cases c4 : e y x <;>
    simp [c1, c2, c3, c4]

theorem eqRows_size : ∀ r ∈ eqRows ++ eqRowsUnknown, 0 < r.size ∧ 2 ≤ r.width := by decide +kernel

/-- A version of `eq_mask`: the instruction of a row or its fallback. -/
def IsEqVersion (c : Cfg) (r : BinRow)
    (f : Vector (BitVec (8 * r.size)) r.width → Vector (BitVec (8 * r.size)) r.width →
      Res (Vector (BitVec (8 * r.size)) r.width)) : Prop :=
  r ∈ eqRows ∧ f = binaryInstr r.mm ∨
    (r ∈ eqRows ∨ r ∈ eqRowsUnknown) ∧ f = binaryFallback (r.fn.eval c r.kind) r.idx

/-- C129: the test of `eq_mask` and `ne_mask` passes for any two integers exactly if they differ,
in every version. -/
theorem C129_eq (c : Cfg) (r : BinRow) (hk : r.kind ≠ .f)
    (f : Vector (BitVec (8 * r.size)) r.width → Vector (BitVec (8 * r.size)) r.width →
      Res (Vector (BitVec (8 * r.size)) r.width)) (hf : IsEqVersion c r f) (x y : BitVec (8 * r.size)) :
    eqTest f x y = if x ≠ y then ok () else panic := by
  have hr : r ∈ eqRows ++ eqRowsUnknown := by
    rcases hf with h | h
    · exact List.mem_append_left _ h.1
    · exact List.mem_append.2 h.1
  obtain ⟨h0, hw⟩ := eqRows_size r hr
  rw [eqTest_exact (fun a b => a = b) (by omega) hw]
  · by_cases h : x = y
    · simp [h]
    · simp [h, Ne.symm h]
  · intro a b
    have : ∃ v, f a b = ok v ∧ IsEqMask a b v := by
      rcases hf with ⟨hr, rfl⟩ | ⟨hr, rfl⟩
      · exact C50_optimized r hr hk a b
      · exact C50_fallback c r hr hk a b
    obtain ⟨v, h1, h2⟩ := this
    refine ⟨v, h1, fun i hi => ?_⟩
    apply BitVec.eq_of_getLsbD_eq
    intro j hj
    unfold maskOf
    by_cases hc : a[i] = b[i]
    · rw [(h2 i hi).1 hc j hj, if_pos hc]; simp [hj]
    · rw [(h2 i hi).2 hc j hj, if_neg hc]; simp

open Classical in
/-- C129: for floats exactly if they are not NaN and have different values, in every version. -/
theorem C129_eq_float (c : Cfg) (r : BinRow) (hk : r.kind = .f)
    (f : Vector (BitVec (8 * r.size)) r.width → Vector (BitVec (8 * r.size)) r.width →
      Res (Vector (BitVec (8 * r.size)) r.width)) (hf : IsEqVersion c r f) (x y : BitVec (8 * r.size)) :
    eqTest f x y = if ieee x ≠ .nan ∧ ieee y ≠ .nan ∧ ieee x ≠ ieee y then ok () else panic := by
  have hr : r ∈ eqRows ++ eqRowsUnknown := by
    rcases hf with h | h
    · exact List.mem_append_left _ h.1
    · exact List.mem_append.2 h.1
  obtain ⟨h0, hw⟩ := eqRows_size r hr
  rw [eqTest_exact (fun a b => ieee a ≠ .nan ∧ ieee a = ieee b) (by omega) hw]
  · congr 1
    apply propext
    constructor
    · rintro ⟨⟨h1, -⟩, ⟨h2, -⟩, h3, -⟩
      exact ⟨h1, h2, fun h => h3 ⟨h1, h⟩⟩
    · rintro ⟨h1, h2, h3⟩
      exact ⟨⟨h1, rfl⟩, ⟨h2, rfl⟩, fun h => h3 h.2, fun h => h3 h.2.symm⟩
  · intro a b
    have : ∃ v, f a b = ok v ∧ IsFloatEqMask a b v := by
      rcases hf with ⟨hr, rfl⟩ | ⟨hr, rfl⟩
      · exact C65_optimized r hr hk a b
      · exact C65_fallback c r hr hk a b
    obtain ⟨v, h1, h2⟩ := this
    refine ⟨v, h1, fun i hi => ?_⟩
    apply BitVec.eq_of_getLsbD_eq
    intro j hj
    unfold maskOf
    by_cases hc : ieee a[i] ≠ .nan ∧ ieee a[i] = ieee b[i]
    · rw [(h2 i hi).1 hc j hj, if_pos hc]; simp [hj]
    · rw [(h2 i hi).2 hc j hj, if_neg hc]; simp

/-! ### Reinterpretations -/

theorem transmuteVia_eq {same : Vector (BitVec n) w → Vector (BitVec n) w → Res Unit}
    (v : Vector (BitVec n) w) {m : Nat} (h : w * n % m = 0) : transmuteVia same v m = same v v := by
  unfold transmuteVia
  rw [C52_roundtrip v]
  have := Nat.div_add_mod (w * n) m
  rw [h, Nat.mul_comm] at this
  omega

/-- C129: for a vector of 8, 16, 32 or 64 bytes the eight round trips give the vector back; the
test passes for every vector of integers. -/
theorem C129_transmute (h : w * n % 64 = 0) (v : Vector (BitVec n) w) :
    transmuteTest assertSame v = ok () := by
  unfold transmuteTest
  rw [transmuteVia_eq v (show w * n % 8 = 0 by omega), transmuteVia_eq v (show w * n % 16 = 0 by omega),
    transmuteVia_eq v (show w * n % 32 = 0 by omega), transmuteVia_eq v h]
  simp only [assertSame_self, ok_bind]

open Classical in
/-- C129: for vectors of floats exactly if no lane is NaN, although the bits come back. -/
theorem C129_transmute_float (hn : n = 32 ∨ n = 64) (h : w * n % 64 = 0) (v : Vector (BitVec n) w) :
    transmuteTest assertEq v = if ∀ i (h : i < w), ieee v[i] ≠ .nan then ok () else panic := by
  unfold transmuteTest
  rw [transmuteVia_eq v (show w * n % 8 = 0 by omega), transmuteVia_eq v (show w * n % 16 = 0 by omega),
    transmuteVia_eq v (show w * n % 32 = 0 by omega), transmuteVia_eq v h, assertEq_self hn]
  split <;> rfl

/-! ### product -/

theorem ofInt_mul_num (signed : Bool) (z : Int) (x : BitVec n) :
    BitVec.ofInt n z * x = BitVec.ofInt n (z * num signed x) := by
  rw [BitVec.ofInt_mul]
  congr 1
  cases signed
  · simp [num]
  · simp [num]

theorem fits_pow (k : Kind) (h2 : 2 ≤ n) (x : BitVec n) {j w : Nat} (hj : j ≤ w)
    (h : Fits k.signed n (num k.signed x ^ w)) : Fits k.signed n (num k.signed x ^ j) := by
  rcases Nat.lt_or_eq_of_le hj with hlt | rfl
  swap
  · exact h
  have h0 : 0 < n := by omega
  rw [fits_iff k h0] at h ⊢
  have hp : (2 : Int) ≤ 2 ^ (n - 1) := by
    have : (2 : Int) ^ 1 ≤ 2 ^ (n - 1) := by
      exact_mod_cast Nat.pow_le_pow_right (by omega) (show 1 ≤ n - 1 by omega)
    simpa using this
  have hn : (2 : Int) ^ n = 2 * 2 ^ (n - 1) := by
    rw [← pow_succ']; congr 1; omega
  set a := num k.signed x with ha
  have habs : |a| ^ j ≤ 1 ∨ 2 * |a| ^ j ≤ |a| ^ w := by
    rcases le_or_gt |a| 1 with h1 | h1
    · exact .inl (pow_le_one₀ (abs_nonneg a) h1)
    · right
      have h3 : |a| ^ (j + 1) ≤ |a| ^ w := pow_le_pow_right₀ (by omega) hlt
      have h4 : 0 ≤ |a| ^ j := pow_nonneg (abs_nonneg a) j
      rw [pow_succ] at h3
      nlinarith
  have h5 := abs_le.1 (le_of_eq (abs_pow a j))
  have h6 : |a ^ j| = |a| ^ j := abs_pow a j
  have h7 : |a ^ w| = |a| ^ w := abs_pow a w
  have h8 := neg_abs_le (a ^ j)
  have h9 := le_abs_self (a ^ j)
  cases k with
  | i =>
    simp only [Kind.lo, Kind.hi] at h ⊢
    have h10 : |a| ^ w ≤ 2 ^ (n - 1) := by
      rw [← h7]; exact abs_le.2 ⟨by omega, by omega⟩
    rcases habs with h' | h' <;> constructor <;> omega
  | u =>
    have hpos : 0 ≤ a := by rw [ha]; simp [num, Kind.signed]
    simp only [Kind.lo, Kind.hi] at h ⊢
    have h10 : |a| ^ w ≤ 2 ^ n - 1 := by
      rw [← h7]; exact abs_le.2 ⟨by omega, by omega⟩
    refine ⟨pow_nonneg hpos j, ?_⟩
    rcases habs with h' | h' <;> omega
  | f =>
    have hpos : 0 ≤ a := by rw [ha]; simp [num, Kind.signed]
    simp only [Kind.lo, Kind.hi] at h ⊢
    have h10 : |a| ^ w ≤ 2 ^ n - 1 := by
      rw [← h7]; exact abs_le.2 ⟨by omega, by omega⟩
    refine ⟨pow_nonneg hpos j, ?_⟩
    rcases habs with h' | h' <;> omega

theorem fits_one (k : Kind) (h2 : 2 ≤ n) : Fits k.signed n 1 := by
  rw [fits_iff k (by omega)]
  have hp : (2 : Int) ≤ 2 ^ (n - 1) := by
    have : (2 : Int) ^ 1 ≤ 2 ^ (n - 1) := by
      exact_mod_cast Nat.pow_le_pow_right (by omega) (show 1 ≤ n - 1 by omega)
    simpa using this
  have hn : (2 : Int) ^ n = 2 * 2 ^ (n - 1) := by
    rw [← pow_succ']; congr 1; omega
  cases k <;> simp only [Kind.lo, Kind.hi] <;> omega

open Classical in
theorem foldlM_pow (c : Cfg) (k : Kind) (h2 : 2 ≤ n) (x : BitVec n) (m j : Nat)
    (hf : c.debug = true → Fits k.signed n (num k.signed x ^ j)) :
    (List.replicate m x).foldlM
        (fun acc s => overflowCheck c k (k.value acc * k.value s) (acc * s))
        (BitVec.ofInt n (num k.signed x ^ j)) =
      if c.debug = true ∧ ¬ Fits k.signed n (num k.signed x ^ (j + m)) then panic
      else ok (BitVec.ofInt n (num k.signed x ^ (j + m))) := by
  have h0 : 0 < n := by omega
  induction m generalizing j with
  | zero =>
    rw [if_neg]
    · rfl
    · rintro ⟨h1, h3⟩; exact h3 (hf h1)
  | succ m ih =>
    rw [List.replicate_succ, List.foldlM_cons, ofInt_mul_num k.signed, ← pow_succ]
    by_cases hd : c.debug = true
    · have hv : k.value (BitVec.ofInt n (num k.signed x ^ j)) = num k.signed x ^ j := by
        rw [← num_eq]; exact num_ofInt_fits k h0 (hf hd)
      rw [hv, ← num_eq, ← pow_succ]
      by_cases hs : Fits k.signed n (num k.signed x ^ (j + 1))
      · rw [overflowCheck_fits ((fits_iff k h0 _).1 hs), ok_bind, ih (j + 1) (fun _ => hs)]
        rw [show j + 1 + m = j + (m + 1) by omega]
      · rw [overflowCheck_panic hd (fun h => hs ((fits_iff k h0 _).2 h)), if_pos]
        · rfl
        · exact ⟨hd, fun h => hs (fits_pow k h2 x (by omega) h)⟩
    · rw [overflowCheck_release (by simpa using hd), ok_bind, ih (j + 1) (fun h => absurd h hd)]
      rw [show j + 1 + m = j + (m + 1) by omega]

open Classical in
/-- C129: the test of `product` for an integer type, with any constant `x` and any expected
product `p`: a checked build passes exactly if `x^WIDTH` fits and is `p`, a release build exactly
if `p` is `x^WIDTH` modulo `2^n`. -/
theorem C129_product (c : Cfg) (k : Kind) (h2 : 2 ≤ n) (w : Nat) (x p : BitVec n) :
    productTest c k w x p =
      if (c.debug = true → Fits k.signed n (num k.signed x ^ w)) ∧
        p = BitVec.ofInt n (num k.signed x ^ w) then ok () else panic := by
  unfold productTest
  rw [C53_product]
  have hl : (Packed.splat x : Vector (BitVec n) w).toList = List.replicate w x := by
    simp [Packed.splat]
  have hone : (1#n) = BitVec.ofInt n (num k.signed x ^ 0) := by
    rw [pow_zero]; rfl
  rw [hl, hone, foldlM_pow c k h2 x w 0 (fun _ => by simpa using fits_one k h2), Nat.zero_add]
  by_cases hc : c.debug = true ∧ ¬ Fits k.signed n (num k.signed x ^ w)
  · rw [if_pos hc, if_neg]
    · rfl
    · rintro ⟨h, -⟩; exact hc.2 (h hc.1)
  · rw [if_neg hc]
    have hc' : c.debug = true → Fits k.signed n (num k.signed x ^ w) := by
      intro h; by_contra h'; exact hc ⟨h, h'⟩
    rw [ok_bind, assertSame_eq]
    by_cases hp : p = BitVec.ofInt n (num k.signed x ^ w)
    · rw [if_pos hp.symm, if_pos ⟨hc', hp⟩]
    · rw [if_neg (fun h => hp h.symm), if_neg (fun h => hp h.2)]

/-- C129: the literals of the source. -/
theorem C129_product_ones (c : Cfg) (k : Kind) (h2 : 2 ≤ n) (w : Nat) :
    productTest c k w 1#n 1#n = ok () := by
  have h1 : num k.signed (1#n) = 1 := num_ofInt_fits k (by omega) (fits_one k h2)
  rw [C129_product c k h2, h1, one_pow, if_pos ⟨fun _ => fits_one k h2, rfl⟩]

open Classical in
/-- C129: for a float type, any integer whose power is exact. -/
theorem C129_product_float (hn : n = 32 ∨ n = 64) (w : Nat) (a : Int)
    (h : (a ^ w).natAbs ≤ 2 ^ (mantBits n + 1)) (p : BitVec n) :
    productTestF w (fofInt n a) p = if ieee p = .fin ((a ^ w : Int) : ℚ) then ok () else panic := by
  have hb : 1 ≤ 2 ^ (mantBits n + 1) := Nat.one_le_two_pow
  have hpow : ∀ j, j ≤ w → (a ^ j).natAbs ≤ 2 ^ (mantBits n + 1) := by
    intro j hj
    rw [Int.natAbs_pow] at h ⊢
    rcases Nat.eq_zero_or_pos a.natAbs with h0 | h0
    · rcases Nat.eq_zero_or_pos j with rfl | hj0
      · simpa using hb
      · rw [h0, Nat.zero_pow hj0]; exact Nat.zero_le _
    · exact le_trans (Nat.pow_le_pow_right h0 hj) h
  have key : ∀ m j (acc : BitVec n), j + m ≤ w → ieee acc = .fin ((a ^ j : Int) : ℚ) →
      ∃ r, (List.replicate m (fofInt n a)).foldlM (fun acc s => ok (fmul acc s)) acc = ok r ∧
        ieee r = .fin ((a ^ (j + m) : Int) : ℚ) := by
    intro m
    induction m with
    | zero => intro j acc _ h; exact ⟨acc, rfl, h⟩
    | succ m ih =>
      intro j acc hj hacc
      have ha : ieee (fofInt n a) = .fin ((a : Int) : ℚ) :=
        fofInt_exact hn (by simpa using hpow 1 (by omega))
      have hm := fmul_int hn hacc ha (by rw [← pow_succ]; exact hpow (j + 1) (by omega))
      rw [← pow_succ] at hm
      obtain ⟨r, h1, h2⟩ := ih (j + 1) _ (by omega) hm
      refine ⟨r, ?_, ?_⟩
      · rw [List.replicate_succ, List.foldlM_cons, ok_bind]; exact h1
      · rw [h2, show j + 1 + m = j + (m + 1) by omega]
  have h1 : ieee (fofInt n 1) = .fin ((a ^ 0 : Int) : ℚ) := by
    rw [pow_zero]; exact fofInt_exact hn hb
  obtain ⟨r, h2, h3⟩ := key w 0 _ (by omega) h1
  unfold productTestF
  rw [C53_product, show (Packed.splat (fofInt n a) : Vector (BitVec n) w).toList =
    List.replicate w (fofInt n a) by simp [Packed.splat], h2, ok_bind]
  rw [Nat.zero_add] at h3
  have h4 : feq r p = true ↔ ieee p = .fin ((a ^ w : Int) : ℚ) := by
    rw [feq_iff hn, h3]
    constructor
    · rintro ⟨-, h⟩; exact h.symm
    · intro h; exact ⟨by simp, h.symm⟩
  unfold assert
  by_cases hp : ieee p = .fin ((a ^ w : Int) : ℚ)
  · rw [if_pos hp, if_pos (h4.2 hp)]
  · rw [if_neg hp, if_neg (fun h => hp (h4.1 h))]

/-! ### sqrt -/

/-- What the test needs of `max` (`isMax = true`) and `min`: right on lanes without NaN. -/
def ExtremeOn (isMax : Bool)
    (f : Vector (BitVec n) w → Vector (BitVec n) w → Res (Vector (BitVec n) w)) : Prop :=
  ∀ a b, ∃ v, f a b = ok v ∧ ∀ i (h : i < w), ieee a[i] ≠ .nan → ieee b[i] ≠ .nan →
    IsFloatExtreme isMax a[i] b[i] v[i]

/-- Both versions of `max` and `min` are. -/
theorem C129_max_min (c : Cfg) (r : BinRow) (hk : r.kind = .f) (hn : 8 * r.size = n) (hw : r.width = w)
    (f : Vector (BitVec n) w → Vector (BitVec n) w → Res (Vector (BitVec n) w))
    (hf : r ∈ cmpRows ∧ f = binaryInstr r.mm ∨
      (r ∈ cmpRows ∨ r ∈ cmpRowsUnknown) ∧ f = binaryFallback (r.fn.eval c r.kind) r.idx) :
    ExtremeOn (r.fn == .max) f := by
  subst hn hw
  intro a b
  rcases hf with ⟨hr, rfl⟩ | ⟨hr, rfl⟩
  · obtain ⟨v, h1, h2⟩ := C66_optimized_partial r hr hk a b
    exact ⟨v, h1, fun i hi ha hb => (h2 i hi).1.2 (fun h => hb h.2)⟩
  · obtain ⟨v, h1, h2⟩ := C66_fallback c r hr hk a b
    exact ⟨v, h1, fun i hi _ _ => h2 i hi⟩

open Classical in
theorem assertEq_extreme (hn : n = 32 ∨ n = 64) (h0 : 0 < w) {isMax : Bool} {y b : BitVec n}
    {v : Vector (BitVec n) w} (hy : ieee y ≠ .nan) (hb : ieee b ≠ .nan)
    (h : ∀ i (h : i < w), IsFloatExtreme isMax y b v[i]) :
    assertEq v (Packed.splat y) =
      if (if isMax then (ieee b).le (ieee y) else (ieee y).le (ieee b)) then ok () else panic := by
  have hv : ∀ i (h : i < w), ieee v[i] ≠ .nan := by
    intro i hi
    rcases (h i hi).1 with e | e <;> rw [e]
    · exact hy
    · exact hb
  have hf : ∀ i (h : i < w), feq v[i] y = true ↔
      (if isMax then (ieee b).le (ieee y) else (ieee y).le (ieee b)) := by
    intro i hi
    have h2 := (h i hi).2.1 hy hb
    rw [feq_iff hn, FVal.eq_iff_le (hv i hi) hy]
    cases isMax
    · simp only [Bool.false_eq_true, if_false] at h2 ⊢
      constructor
      · rintro ⟨-, h3⟩
        rcases (h i hi).1 with e | e
        · have := h2.2; rw [e] at this; exact this
        · rw [e] at h3; exact h3.2
      · intro h3
        refine ⟨hv i hi, h2.1, ?_⟩
        rcases (h i hi).1 with e | e <;> rw [e]
        · exact FVal.le_refl hy
        · exact h3
    · simp only [if_true] at h2 ⊢
      constructor
      · rintro ⟨-, h3⟩
        rcases (h i hi).1 with e | e
        · have := h2.2; rw [e] at this; exact this
        · rw [e] at h3; exact h3.1
      · intro h3
        refine ⟨hv i hi, ?_, h2.1⟩
        rcases (h i hi).1 with e | e <;> rw [e]
        · exact FVal.le_refl hy
        · exact h3
  by_cases hp : (if isMax then (ieee b).le (ieee y) else (ieee y).le (ieee b))
  · rw [if_pos hp]
    apply assertEq_of
    intro i hi
    rw [splat_get]
    exact (hf i hi).2 hp
  · rw [if_neg hp]
    unfold assertEq assert
    rw [if_neg]
    intro ha
    rw [Vector.all_eq_true] at ha
    have := ha 0 h0
    simp only [Vector.getElem_zip, splat_get] at this
    exact hp ((hf 0 h0).1 this)

theorem sqrtRows_width : ∀ r ∈ sqrtRows ++ sqrtRowsUnknown, 0 < r.width := by decide +kernel

open Classical in
/-- C129: the test of `sqrt`, with any perfect square `a²` for 9.0 and any limits other than NaN:
it passes exactly if the limits enclose `a`, with and without the instructions of the three
functions. -/
theorem C129_sqrt (opt : Bool) (r : UnRow) (hr : r ∈ sqrtRows ++ sqrtRowsUnknown)
    {max min : Vector (BitVec (8 * r.size)) r.width → Vector (BitVec (8 * r.size)) r.width →
      Res (Vector (BitVec (8 * r.size)) r.width)} (hmax : ExtremeOn true max) (hmin : ExtremeOn false min)
    (one x y lo hi : BitVec (8 * r.size)) (a : ℚ) (ha : 0 < a) (h1 : ieee one = .fin 1)
    (hx : ieee x = .fin (a * a)) (hy : ieee y = .fin a) (hlo : ieee lo ≠ .nan) (hhi : ieee hi ≠ .nan) :
    sqrtTest (sqrtOf opt r) max min one x lo hi =
      if (ieee lo).le (.fin a) ∧ (FVal.fin a).le (ieee hi) then ok () else panic := by
  have hn := (rootRows_facts r (by simp only [List.mem_append] at hr ⊢; tauto)).2.2
  have hw := sqrtRows_width r hr
  have hny : ieee y ≠ .nan := by rw [hy]; simp
  have e1 := C115_sqrt opt r hr one one 1 one_pos h1 (by rw [h1]; norm_num)
  have e2 := C115_sqrt opt r hr x y a ha hy hx
  obtain ⟨u, u1, u2⟩ := hmax (Packed.splat y) (Packed.splat lo)
  obtain ⟨v, v1, v2⟩ := hmin (Packed.splat y) (Packed.splat hi)
  have q1 : assertEq (Packed.splat one : Vector _ r.width) (Packed.splat one) = ok () := by
    apply assertEq_of
    intro i hi'
    rw [splat_get, feq_iff hn]
    exact ⟨by rw [h1]; simp, rfl⟩
  have q2 := assertEq_extreme hn hw (isMax := true) hny hlo (v := u) (fun i hi' => by
    have := u2 i hi'
    simp only [splat_get] at this
    exact this hny hlo)
  have q3 := assertEq_extreme hn hw (isMax := false) hny hhi (v := v) (fun i hi' => by
    have := v2 i hi'
    simp only [splat_get] at this
    exact this hny hhi)
  unfold sqrtTest
  rw [e1, e2]
  simp only [ok_bind, q1, u1, v1, q2, q3, hy, if_true, Bool.false_eq_true, if_false]
  by_cases p1 : (ieee lo).le (.fin a) <;> by_cases p2 : (FVal.fin a).le (ieee hi) <;> simp [p1, p2]

/-- C129: the literals 1.0, 9.0, 2.999 and 3.001 of the source. -/
theorem C129_sqrt_literals (opt : Bool) (r : UnRow) (hr : r ∈ sqrtRows ++ sqrtRowsUnknown)
    {max min : Vector (BitVec (8 * r.size)) r.width → Vector (BitVec (8 * r.size)) r.width →
      Res (Vector (BitVec (8 * r.size)) r.width)} (hmax : ExtremeOn true max) (hmin : ExtremeOn false min) :
    sqrtTest (sqrtOf opt r) max min (fofInt _ 1) (fofInt _ 9) (flit _ 2999 1000) (flit _ 3001 1000) =
      ok () := by
  have hn := (rootRows_facts r (by simp only [List.mem_append] at hr ⊢; tauto)).2.2
  have hb : 9 ≤ 2 ^ (mantBits (8 * r.size) + 1) := by
    rcases hn with h | h <;> rw [h] <;> decide
  have i1 : ieee (fofInt (8 * r.size) 1) = .fin 1 := by
    simpa using fofInt_exact hn (z := 1) (by simp; omega)
  have i3 : ieee (fofInt (8 * r.size) 3) = .fin 3 := by
    simpa using fofInt_exact hn (z := 3) (by simp; omega)
  have i9 : ieee (fofInt (8 * r.size) 9) = .fin (3 * 3) := by
    rw [fofInt_exact hn (z := 9) (by simpa using hb)]; norm_num
  have f1 : fnan (flit (8 * r.size) 2999 1000) = false ∧ fnan (flit (8 * r.size) 3001 1000) = false ∧
      fkey (flit (8 * r.size) 2999 1000) ≤ fkey (fofInt (8 * r.size) 3) ∧
      fkey (fofInt (8 * r.size) 3) ≤ fkey (flit (8 * r.size) 3001 1000) := by
    rcases hn with h | h <;> rw [h] <;> decide +kernel
  obtain ⟨n1, n2, k1, k2⟩ := f1
  have m1 : ieee (flit (8 * r.size) 2999 1000) ≠ .nan := fun h => by
    rw [(fnan_iff hn _).2 h] at n1; exact absurd n1 (by simp)
  have m2 : ieee (flit (8 * r.size) 3001 1000) ≠ .nan := fun h => by
    rw [(fnan_iff hn _).2 h] at n2; exact absurd n2 (by simp)
  have m3 : ieee (fofInt (8 * r.size) 3) ≠ .nan := by rw [i3]; simp
  rw [C129_sqrt opt r hr hmax hmin _ _ _ _ _ 3 (by norm_num) i1 i9 i3 m1 m2, if_pos]
  rw [← i3]
  exact ⟨(ieee_le_iff hn m1 m3).2 k1, (ieee_le_iff hn m3 m2).2 k2⟩

/-! ### Examples -/

/-- The literals of the merge test, on `u8x16` with blends and without. -/
example : mergeTest (w := 16) assertSame (mergeInterleavedOf debug64 true) (mergeHalvesOf debug64 false)
    (mergePartitionedOf debug64 true) (partitionOf debug64 false) 30#8 5#8 = ok () := by decide +kernel

/-- `1.0` and `0.0` differ; a NaN makes the test fail; so do equal constants. -/
example : ∃ r ∈ eqRows, r.kind = .f ∧ r.width = 4 ∧ 8 * r.size = 32 := by decide +kernel
example : eqTest (binaryFallback (w := 4) (Fn.eq.eval debug64 .f) [0, 1, 2, 3]) (fofInt 32 1) 0#32 = ok () := by
  decide +kernel
example : eqTest (binaryFallback (w := 4) (Fn.eq.eval debug64 .f) [0, 1, 2, 3]) (qnan 32) 0#32 = panic := by
  decide +kernel

/-- `u8x16` of twos: `2^16` is 0 in a release build and a panic in a debug build. -/
example : productTest release64 .u 16 2#8 0#8 = ok () ∧ productTest debug64 .u 16 2#8 0#8 = panic := by
  decide +kernel

/-- Both versions of `max` and `min` of `f32x4` satisfy the hypothesis of `C129_sqrt`. -/
example : ∃ r ∈ cmpRows, r.kind = .f ∧ r.fn = .max ∧ 8 * r.size = 32 ∧ r.width = 4 := by decide +kernel
example : ∃ r ∈ cmpRows, r.kind = .f ∧ r.fn = .min ∧ 8 * r.size = 32 ∧ r.width = 4 := by decide +kernel

end Faster
