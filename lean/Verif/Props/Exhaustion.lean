import Verif.Props.Protocol
import Verif.Props.StrideTrace
import Verif.Props.StrideZipExact
import Verif.Props.Adapter
/-
C15 for the other iterator types: strides, adapters, zips with any first iterator, `stride_zip`s,
and everything built on them.
-/
namespace Faster
open Res SIMDSized SIMDIterable SIMDIterator

/-! ### Strides -/

section
variable {A α : Type} {w : Nat} [SIMDSized A] [SIMDArray A α w] [Packable α]

/-- **C15** for strides of any array: a `None` of `next` leaves the iterator as it is, so all
further calls return `None`. -/
theorem C15_stride_next_none (c : Cfg) (it it' : PackedStride A α w)
    (h : next c it = ok (none, it')) : it' = it ∧ next c it' = ok (none, it') := by
  have e : it' = it := by
    have h' : PackedStride.next c it = ok (none, it') := h
    obtain ⟨m, _, h'⟩ := bind_eq_ok.mp h'
    obtain ⟨e, _, h'⟩ := bind_eq_ok.mp h'
    obtain ⟨n, _, h'⟩ := bind_eq_ok.mp h'
    split at h'
    · obtain ⟨_, _, h'⟩ := bind_eq_ok.mp h'
      obtain ⟨_, _, h'⟩ := bind_eq_ok.mp h'
      simp at h'
    · simp only [ok.injEq, Prod.mk.injEq, true_and] at h'
      exact h'.symm
  subst e
  exact ⟨rfl, h⟩

omit [Packable α] in
theorem stride_past_end {n s k p w : Nat} (hk : k < s) (hw : 0 < w) (hp : n / s ≤ p) :
    n ≤ k + s * (p + w) := by
  have h1 := Nat.div_add_mod n s
  have h2 := Nat.mod_lt n (show 0 < s by omega)
  have h3 : s * (n / s + 1) ≤ s * (p + w) := Nat.mul_le_mul_left s (by omega)
  rw [Nat.mul_add, Nat.mul_one] at h3
  omega

/-- A stride which stands at or behind its end. -/
theorem stride_exhausted {c : Cfg} {a : A} {l : List α} (h : Represents c a l) {s k : Nat}
    (hk : k < s) (d : Vector α w) (p : Nat) (hw : 0 < w) (hu : l.length + s * (w + 1) < c.usize)
    (hp : l.length / s ≤ p) (hpu : k + s * (p + w) < c.usize) :
    Exhausted c (⟨a, k + s * p, k, s, d⟩ : PackedStride A α w) := by
  have hpast := stride_past_end hk hw hp
  have hsw : s * w ≤ s * (p + w) := Nat.mul_le_mul_left s (by omega)
  constructor
  · simp only [SIMDIterable.next, PackedStride.next]
    rw [umul_ok (by omega)]
    simp only [ok_bind]
    rw [uadd_ok (by rw [Nat.mul_add] at hpu; omega)]
    simp only [ok_bind, h.scalarLen]
    rw [if_neg (by rw [Nat.mul_add] at hpast; omega)]
  · have hr := represents_stride h hk (k + s * p) d hw hu
    have hpos : scalarPos c (⟨a, k + s * p, k, s, d⟩ : PackedStride A α w) = ok p := by
      simp only [SIMDIterable.scalarPos]
      rw [usub_ok (by omega)]
      simp only [ok_bind]
      rw [udiv_ok (by omega), Nat.add_sub_cancel_left, Nat.mul_div_cancel_left _ (by omega)]
    have hsl : (strided s k l hk).length + w < c.usize := by
      rw [strided_length]
      have h1 : l.length / s ≤ l.length := Nat.div_le_self _ _
      have h2 : w + 1 ≤ s * (w + 1) := Nat.le_mul_of_pos_left _ (by omega)
      omega
    have e := blanketEnd_exact (t' := (⟨a, k + s * p, k, s, d⟩ : PackedStride A α w)) hr hpos
      (fun hlt => by rw [strided_length] at hlt; omega) hsl
    rw [if_pos (by rw [strided_length]; exact hp)] at e
    exact e

/-- Where `end` leaves a stride. -/
theorem stride_end_state {c : Cfg} {a : A} {l : List α} (h : Represents c a l) {s k : Nat}
    (hk : k < s) (d : Vector α w) (p : Nat) (hw : 0 < w) (hu : l.length + s * (w + 1) < c.usize)
    (hpu : k + s * (p + w) < c.usize) (r : Option (Vector α w × Nat)) (it' : PackedStride A α w)
    (he : end_ c (⟨a, k + s * p, k, s, d⟩ : PackedStride A α w) = ok (r, it')) :
    ∃ q, it' = ⟨a, k + s * q, k, s, d⟩ ∧ l.length / s ≤ q ∧ k + s * (q + w) < c.usize := by
  have hr := represents_stride h hk (k + s * p) d hw hu
  have hpos : scalarPos c (⟨a, k + s * p, k, s, d⟩ : PackedStride A α w) = ok p := by
    simp only [SIMDIterable.scalarPos]
    rw [usub_ok (by omega)]
    simp only [ok_bind]
    rw [udiv_ok (by omega), Nat.add_sub_cancel_left, Nat.mul_div_cancel_left _ (by omega)]
  have hsl : (strided s k l hk).length + w < c.usize := by
    rw [strided_length]
    have h1 : l.length / s ≤ l.length := Nat.div_le_self _ _
    have h2 : w + 1 ≤ s * (w + 1) := Nat.le_mul_of_pos_left _ (by omega)
    omega
  have hmul : s * (l.length / s) ≤ l.length := Nat.mul_div_le _ _
  have hadv : p < (strided s k l hk).length →
      advance c (⟨a, k + s * p, k, s, d⟩ : PackedStride A α w) ((strided s k l hk).length - p) =
        ok (⟨a, k + s * (l.length / s), k, s, d⟩ : PackedStride A α w) := by
    intro hlt
    rw [strided_length] at hlt ⊢
    have h1 : s * p + s * (l.length / s - p) = s * (l.length / s) := by
      rw [← Nat.mul_add]; congr 1; omega
    have h2 : s * (w + 1) = s * w + s := by rw [Nat.mul_add, Nat.mul_one]
    simp only [SIMDIterable.advance, PackedStride.advance]
    rw [umul_ok (by rw [Nat.mul_comm]; omega), Nat.mul_comm]
    simp only [ok_bind]
    rw [uadd_ok (by omega)]
    simp only [ok_bind]
    congr 2
    omega
  have e := blanketEnd_exact hr hpos hadv hsl
  have he' : blanketEnd c (⟨a, k + s * p, k, s, d⟩ : PackedStride A α w) = ok (r, it') := he
  rw [e, strided_length] at he'
  have hend : k + s * (l.length / s + w) < c.usize := by
    have h2 : s * (w + 1) = s * w + s := by rw [Nat.mul_add, Nat.mul_one]
    have h3 : s * (l.length / s + w) = s * (l.length / s) + s * w := Nat.mul_add _ _ _
    omega
  split at he'
  · rename_i hle
    simp only [ok.injEq, Prod.mk.injEq] at he'
    exact ⟨p, he'.2.symm, hle, hpu⟩
  · split at he'
    · cases he'
    · split at he'
      · unfold badAccess at he'
        split at he' <;> cases he'
      · simp only [ok.injEq, Prod.mk.injEq] at he'
        exact ⟨_, he'.2.symm, Nat.le_refl _, hend⟩

/-- **C15** for strides of anything array-like, at every position: whatever `end` returned, the
iterator is exhausted afterwards. -/
theorem C15_stride_end {c : Cfg} {a : A} {l : List α} (h : Represents c a l) {s k : Nat}
    (hk : k < s) (d : Vector α w) (p : Nat) (hw : 0 < w) (hu : l.length + s * (w + 1) < c.usize)
    (hpu : k + s * (p + w) < c.usize) (r : Option (Vector α w × Nat)) (it' : PackedStride A α w)
    (he : end_ c (⟨a, k + s * p, k, s, d⟩ : PackedStride A α w) = ok (r, it')) :
    Exhausted c it' := by
  obtain ⟨q, h1, h2, h3⟩ := stride_end_state h hk d p hw hu hpu r it' he
  rw [h1]
  exact stride_exhausted h hk d q hw hu h2 h3

end

/-! ### Adapters -/

section
variable {α : Type} {w : Nat}

/-- **C15** for adapters: a `None` of `next` leaves the adapter as it is. -/
theorem C15_adapter_next_none (c : Cfg) (a a' : SIMDAdapter α w)
    (h : next c a = ok (none, a')) : a' = a ∧ next c a' = ok (none, a') := by
  have e : a' = a := by
    have h' : SIMDAdapter.next c a = ok (none, a') := h
    obtain ⟨e, _, h'⟩ := bind_eq_ok.mp h'
    obtain ⟨n, _, h'⟩ := bind_eq_ok.mp h'
    split at h'
    · obtain ⟨_, _, h'⟩ := bind_eq_ok.mp h'
      obtain ⟨_, _, h'⟩ := bind_eq_ok.mp h'
      simp at h'
    · simp only [ok.injEq, Prod.mk.injEq, true_and] at h'
      exact h'.symm
  subst e
  exact ⟨rfl, h⟩

/-- **C15** for adapters in every state: whatever `end` returned, the adapter is exhausted
afterwards. -/
theorem C15_adapter_end (c : Cfg) (a a' : SIMDAdapter α w) (hw : 0 < w)
    (hu : a.position + w < c.usize) (r : Option (Vector α w × Nat))
    (h : end_ c a = ok (r, a')) : Exhausted c a' := by
  have h' : SIMDAdapter.end_ c a = ok (r, a') := h
  obtain ⟨l, s, d, p⟩ := a
  simp only at hu
  simp only [SIMDAdapter.end_, SIMDSized.scalarLen, ok_bind] at h'
  split at h'
  · obtain ⟨m, _, h'⟩ := bind_eq_ok.mp h'
    obtain ⟨⟨scratch, off⟩, _, h'⟩ := bind_eq_ok.mp h'
    obtain ⟨a1, h1, h'⟩ := bind_eq_ok.mp h'
    simp only [ok.injEq, Prod.mk.injEq] at h'
    rw [← h'.2]
    have h2 : a1 = ⟨[], scratch, d, 0⟩ := by
      simp only [finalize, SIMDSized.scalarLen, SIMDIterable.scalarPos, ok_bind,
        List.length_nil] at h1
      unfold usub at h1
      by_cases hp : p ≤ 0
      · have : p = 0 := by omega
        subst this
        rw [if_pos (Nat.le_refl _)] at h1
        simp only [ok_bind, SIMDIterable.advance, SIMDAdapter.advance] at h1
        rw [uadd_ok (by omega)] at h1
        simp only [ok_bind, ok.injEq] at h1
        exact h1.symm
      · rw [if_neg hp] at h1
        by_cases hd : c.debug = true
        · rw [if_pos hd] at h1; simp at h1
        · rw [if_neg hd] at h1
          simp only [ok_bind, SIMDIterable.advance, SIMDAdapter.advance] at h1
          rw [Nat.mod_eq_of_lt (by omega)] at h1
          unfold uadd at h1
          rw [if_neg (by omega), if_neg hd, show p + (c.usize + 0 - p) = c.usize by omega,
            Nat.mod_self] at h1
          simp only [ok_bind, ok.injEq] at h1
          exact h1.symm
    rw [h2]
    constructor
    · simp only [SIMDIterable.next, SIMDAdapter.next, SIMDSized.scalarLen]
      rw [uadd_ok (by omega)]
      simp only [ok_bind, List.length_nil]
      rw [if_neg (by omega)]
    · simp only [SIMDIterator.end_, SIMDAdapter.end_, SIMDSized.scalarLen, ok_bind, List.length_nil,
        Nat.lt_irrefl, if_false]
  · rename_i hle
    simp only [ok.injEq, Prod.mk.injEq] at h'
    rw [← h'.2]
    constructor
    · simp only [SIMDIterable.next, SIMDAdapter.next, SIMDSized.scalarLen]
      rw [uadd_ok (by omega)]
      simp only [ok_bind]
      rw [if_neg (by omega)]
    · simp only [SIMDIterator.end_, SIMDAdapter.end_, SIMDSized.scalarLen, ok_bind]
      rw [if_neg hle]

end

/-! ### Zips -/

section
variable {I R α γ : Type} {w : Nat} [SIMDSized I] [SIMDIterator I α w] [Packable α] [ZipRest R γ]

/-- **C15** for zips with any iterators: if the first iterator is exhausted and can tell where it is,
nothing comes out of the zip. -/
theorem C15_zip (c : Cfg) (it : I) (rest : R) (h : Exhausted c it) {p : Nat}
    (hpos : SIMDIterable.scalarPos c it = ok p) : ZExhausted c (⟨it, rest⟩ : Zip I R) := by
  constructor
  · simp only [SIMDZippedIterator.next, Zip.next, hpos, ok_bind, h.1]
  · simp only [SIMDZippedIterator.end_, Zip.end_, hpos, ok_bind, h.2]

/-- **C15** for zips with any iterators: `end` of a zip leaves the first iterator as its own `end`
does. -/
theorem C15_zip_end_first (c : Cfg) (it : I) (rest : R) (r : Option ((Vector α w × γ) × Nat))
    (z : Zip I R) (h : SIMDZippedIterator.end_ c (⟨it, rest⟩ : Zip I R) = ok (r, z)) :
    z.rest = rest ∧ ∃ q, end_ c it = ok (q, z.first) := by
  have h' : Zip.end_ c (⟨it, rest⟩ : Zip I R) = ok (r, z) := h
  obtain ⟨_, _, h'⟩ := bind_eq_ok.mp h'
  obtain ⟨⟨q, it'⟩, h1, h'⟩ := bind_eq_ok.mp h'
  rcases q with _ | ⟨v, n⟩
  · simp only [ok.injEq, Prod.mk.injEq] at h'
    rw [← h'.2]
    exact ⟨rfl, _, h1⟩
  · obtain ⟨_, _, h'⟩ := bind_eq_ok.mp h'
    simp only [ok.injEq, Prod.mk.injEq] at h'
    rw [← h'.2]
    exact ⟨rfl, _, h1⟩

end

section
variable {Z γ : Type} [SIMDZippedIterator Z γ]

/-- **C15**: `simd_reduce` of an exhausted zip or `stride_zip` does not call the closure. -/
theorem C15_zip_reduce {A σ : Type} (c : Cfg) (fuel : Nat) (z : Z) (start : A) (st : σ)
    (f : σ → A → γ → Res (A × σ)) (h : ZExhausted c z) :
    zsimdReduce c (fuel + 1) z start st f = ok (z, start, st) := by
  simp [zsimdReduce, zreduceLoop, h.1, h.2]

/-- **C15**: neither does `simd_do_each`. -/
theorem C15_zip_do_each {σ : Type} (c : Cfg) (fuel : Nat) (z : Z) (st : σ) (f : FnMut σ γ Unit)
    (h : ZExhausted c z) : zsimdDoEach c (fuel + 1) z st f = ok (z, st) := by
  simp [zsimdDoEach, zdoEachLoop, h.1, h.2]

/-- **C15**: nothing comes out of the map of an exhausted zip or `stride_zip`. -/
theorem C15_zip_map {σ β : Type} [Packable β] {w' : Nat} (c : Cfg) (z : Z) (st : σ)
    (f : FnMut σ γ (Vector β w')) (h : ZExhausted c z) : Exhausted c (zsimdMap z st f) := by
  constructor
  · simp [zsimdMap, SIMDIterable.next, SIMDZipMap.next, h.1]
  · simp [zsimdMap, SIMDIterator.end_, SIMDZipMap.end_, h.2]

end

/-- **C15** for zips whose first iterator is a stride, the others being anything: after `end`
nothing more comes out. -/
theorem C15_zip_stride_end {A α R γ : Type} {w : Nat} [SIMDSized A] [SIMDArray A α w] [Packable α]
    [ZipRest R γ] {c : Cfg} {a : A} {l : List α} (h : Represents c a l) {s k : Nat} (hk : k < s)
    (d : Vector α w) (p : Nat) (rest : R) (hw : 0 < w) (hu : l.length + s * (w + 1) < c.usize)
    (hpu : k + s * (p + w) < c.usize) (r : Option ((Vector α w × γ) × Nat))
    (z : Zip (PackedStride A α w) R)
    (he : SIMDZippedIterator.end_ c (⟨⟨a, k + s * p, k, s, d⟩, rest⟩ : Zip (PackedStride A α w) R) =
      ok (r, z)) : ZExhausted c z := by
  obtain ⟨h1, r', h2⟩ := C15_zip_end_first c _ rest r z he
  obtain ⟨q, h3, -, -⟩ := stride_end_state h hk d p hw hu hpu r' z.first h2
  refine C15_zip c z.first z.rest (p := q) (C15_stride_end h hk d p hw hu hpu r' z.first h2) ?_
  rw [h3]
  simp only [SIMDIterable.scalarPos]
  rw [usub_ok (by omega)]
  simp only [ok_bind]
  rw [udiv_ok (by omega), Nat.add_sub_cancel_left, Nat.mul_div_cancel_left _ (by omega)]

/-! ### `stride_zip` -/

section
variable {α : Type} [Packable α] {w : Nat}

/-- **C15** for `stride_zip`: a `None` of `next` may still take a vector from the inner iterator, but
from then on `next` returns `None` and changes nothing. -/
theorem C15_stride_zip_next_none (c : Cfg) (l : List α) (d : Vector α w) (b : Nat)
    (pk : Option (Vector α w)) (p : Nat) (hw : 0 < w) (hlen : l.length + 2 * w < c.usize)
    (hp : p + 2 * w < c.usize) (z' : StrideZip (SIMDIter (Slice α w) α w) α w)
    (h : SIMDZippedIterator.next c (pairsAt l d b pk p) = ok (none, z')) :
    SIMDZippedIterator.next c z' = ok (none, z') := by
  have hr := represents_slice (w := w) c l
  simp only [SIMDZippedIterator.next, StrideZip.next] at h
  by_cases h1 : p + w ≤ l.length
  · rw [simdIter_next_some hr h1 (by omega)] at h
    simp only [ok_bind] at h
    by_cases h2 : p + w + w ≤ l.length
    · rw [simdIter_next_some hr h2 (by omega)] at h
      simp only [ok_bind, ok.injEq, Prod.mk.injEq, reduceCtorEq, false_and] at h
    · have e := simdIter_next_none hr (d := d) (p := p + w) (by omega) (by omega)
      rw [e] at h
      simp only [ok_bind, ok.injEq, Prod.mk.injEq, true_and] at h
      rw [← h]
      simp only [SIMDZippedIterator.next, StrideZip.next, e, ok_bind]
  · have e := simdIter_next_none hr (d := d) (p := p) (by omega) (by omega)
    rw [e] at h
    simp only [ok_bind, ok.injEq, Prod.mk.injEq, true_and] at h
    rw [← h]
    simp only [SIMDZippedIterator.next, StrideZip.next, e, ok_bind]

omit [Packable α] in
/-- After `end` the machine stands at or behind the end, and nothing is kept back. -/
theorem pairMachine_end {c : Cfg} {l : List α} {d : Vector α w} {b : Nat}
    {k : Option (Vector α w)} {p : Nat} {o : ZipOut (Vector α w × Vector α w)}
    {s' : Option (Vector α w) × Nat} (hk : k = none ∨ l.length < p + w)
    (h : pairMachine c l d b .end_ (k, p) = ok (o, s')) :
    s'.1 = none ∧ l.length ≤ s'.2 ∧ s'.2 ≤ max p l.length := by
  simp only [pairMachine] at h
  split at h
  · simp only [ok.injEq, Prod.mk.injEq] at h
    rw [← h.2]
    exact ⟨rfl, by assumption, by simp only; omega⟩
  · split at h
    · cases h
    · split at h
      · simp only [ok.injEq, Prod.mk.injEq] at h
        rw [← h.2]
        refine ⟨?_, Nat.le_refl _, by simp only; omega⟩
        rcases hk with hk | hk
        · exact hk
        · omega
      · split at h
        · unfold badAccess at h
          split at h <;> cases h
        · simp only [ok.injEq, Prod.mk.injEq] at h
          rw [← h.2]
          exact ⟨rfl, Nat.le_refl _, by simp only; omega⟩

/-- **C15** for `stride_zip`, `end` in every state in which nothing, or the last full vector, is kept
back: whatever it returned, nothing more comes out afterwards. -/
theorem C15_stride_zip_end (c : Cfg) (l : List α) (d : Vector α w) (b : Nat)
    (k : Option (Vector α w)) (p : Nat) (hw : 0 < w) (hlen : l.length + 2 * w < c.usize)
    (hb : b ≤ p) (hp : max p (b + l.length + 1) + 2 * w < c.usize)
    (hk : k = none ∨ l.length < p + w)
    (r : Option ((Vector α w × Vector α w) × Nat)) (z' : StrideZip (SIMDIter (Slice α w) α w) α w)
    (h : SIMDZippedIterator.end_ c (pairsAt l d b k p) = ok (r, z')) : ZExhausted c z' := by
  have h1 := pairs_step_exact c l d b k p .end_ hw hlen hb (by simp only [zadvanced]; omega)
  simp only [ZipOp.step, h, ok_bind] at h1
  obtain ⟨⟨o, s'⟩, h2, h3⟩ := bind_eq_ok.mp h1.symm
  simp only [ok.injEq, Prod.mk.injEq] at h3
  obtain ⟨e1, e2, e3⟩ := pairMachine_end hk h2
  have hz : z' = pairsAt l d b none s'.2 := by rw [← h3.2, e1]
  rw [hz]
  have hr := represents_slice (w := w) c l
  have n1 := simdIter_next_none hr (d := d) (p := s'.2) (by omega) (by omega)
  have n2 := simdIter_end_exact hr s'.2 d (by omega)
  rw [if_pos e2] at n2
  constructor
  · simp only [SIMDZippedIterator.next, StrideZip.next, n1, ok_bind]
  · simp only [SIMDZippedIterator.end_, StrideZip.end_, n1, n2, ok_bind, Option.getD_none,
      gt_iff_lt, Nat.lt_irrefl, if_false]

omit [Packable α] in
/-- What every state reached by calls satisfies: a vector is only kept back if less than a vector is
left. -/
def KeptLast (l : List α) (b : Nat) (s : Option (Vector α w) × Nat) : Prop :=
  b ≤ s.2 ∧ (s.1 = none ∨ l.length < s.2 + w ∧ (w = 1 → b = 0 → s.2 % 2 = l.length % 2))

omit [Packable α] in
theorem pairMachine_kept {c : Cfg} {l : List α} {d : Vector α w} {b : Nat} (hw : 0 < w) {op : ZipOp}
    {s s' : Option (Vector α w) × Nat} {o : ZipOut (Vector α w × Vector α w)}
    (hs : KeptLast l b s) (h : pairMachine c l d b op s = ok (o, s')) : KeptLast l b s' := by
  obtain ⟨k, p⟩ := s
  obtain ⟨hb, hk⟩ := hs
  simp only at hb hk
  cases op with
  | next =>
    simp only [pairMachine] at h
    split at h
    · simp only [ok.injEq, Prod.mk.injEq] at h
      rw [← h.2]
      refine ⟨by simp only; omega, ?_⟩
      rcases hk with hk | hk
      · exact Or.inl hk
      · omega
    · split at h
      · simp only [ok.injEq, Prod.mk.injEq] at h
        rw [← h.2]
        exact ⟨by simp only; omega, Or.inr ⟨by simp only; omega, by simp only; omega⟩⟩
      · simp only [ok.injEq, Prod.mk.injEq] at h
        rw [← h.2]
        exact ⟨hb, hk⟩
  | end_ =>
    obtain ⟨e1, e2, e3⟩ := pairMachine_end (hk.imp id And.left) h
    refine ⟨?_, Or.inl e1⟩
    simp only [pairMachine] at h
    split at h
    · simp only [ok.injEq, Prod.mk.injEq] at h
      rw [← h.2]; exact hb
    · omega
  | advance n =>
    simp only [pairMachine, ok.injEq, Prod.mk.injEq] at h
    rw [← h.2]
    exact ⟨by simp only; omega, hk.imp id (fun hk => ⟨by simp only; omega, by simp only; omega⟩)⟩
  | finalize =>
    simp only [pairMachine] at h
    split at h
    · cases h
    · simp only [ok.injEq, Prod.mk.injEq] at h
      rw [← h.2]
      exact ⟨by simp only; omega, hk.imp id (fun hk => ⟨by simp only; omega, by simp only; omega⟩)⟩
  | _ =>
    simp only [pairMachine, ok.injEq, Prod.mk.injEq] at h
    rw [← h.2]
    exact ⟨hb, hk⟩

omit [Packable α] in
theorem runPairs_kept {c : Cfg} {l : List α} {d : Vector α w} {b : Nat} (hw : 0 < w) :
    ∀ (ops : List ZipOp) (s s' : Option (Vector α w) × Nat)
      (os : List (ZipOut (Vector α w × Vector α w))), KeptLast l b s →
      runPairs c l d b ops s = ok (os, s') → KeptLast l b s' ∧
        max s'.2 (b + l.length + 1) ≤ max s.2 (b + l.length + 1) + 2 * zadvanced ops := by
  intro ops
  induction ops with
  | nil =>
    intro s s' os hs h
    simp only [runPairs, ok.injEq, Prod.mk.injEq] at h
    rw [← h.2]
    exact ⟨hs, by omega⟩
  | cons op ops ih =>
    intro s s' os hs h
    have hz : zadvanced (op :: ops) = zadvanced [op] + zadvanced ops := by
      cases op <;> simp [zadvanced]
    simp only [runPairs] at h
    obtain ⟨⟨o, s1⟩, h1, h⟩ := bind_eq_ok.mp h
    obtain ⟨⟨os1, s2⟩, h2, h⟩ := bind_eq_ok.mp h
    simp only [ok.injEq, Prod.mk.injEq] at h
    rw [← h.2]
    have h3 := (pairMachine_moves c l d b op s hs.1 o s1 h1).2
    obtain ⟨h4, h5⟩ := ih s1 s2 os1 (pairMachine_kept hw hs h1) h2
    exact ⟨h4, by omega⟩

/-- **C15** for `stride_zip` in every state which calls of its methods reach: after `end`, whatever it
returned, nothing more comes out. -/
theorem C15_stride_zip_trace (c : Cfg) (l : List α) (d : Vector α w) (b : Nat) (hw : 0 < w)
    (hlen : l.length + 2 * w < c.usize) (ops : List ZipOp)
    (hu : b + l.length + 1 + 2 * zadvanced ops + 2 * w < c.usize)
    (os : List (ZipOut (Vector α w × Vector α w))) (z : StrideZip (SIMDIter (Slice α w) α w) α w)
    (h : runZip c (pairsAt l d b none b) ops = ok (os, z))
    (r : Option ((Vector α w × Vector α w) × Nat)) (z' : StrideZip (SIMDIter (Slice α w) α w) α w)
    (he : SIMDZippedIterator.end_ c z = ok (r, z')) : ZExhausted c z' := by
  rw [C98_exact c l d b hw hlen ops (none, b) (Nat.le_refl _) (by simp only; omega)] at h
  obtain ⟨⟨os', s'⟩, h1, h⟩ := bind_eq_ok.mp h
  simp only [ok.injEq, Prod.mk.injEq] at h
  obtain ⟨⟨h2, h3⟩, h4⟩ := runPairs_kept hw ops (none, b) s' os' ⟨Nat.le_refl _, Or.inl rfl⟩ h1
  rw [← h.2] at he
  exact C15_stride_zip_end c l d b s'.1 s'.2 hw hlen h2 (by simp only at h4; omega)
    (h3.imp id And.left) r z' he

end

set_option synthInstance.maxSize 2000 in
/-- The stride of a whole pass: `end` returns the last vector, then nothing. -/
example : (do
    let (a, it) ← next debug64 (strideAt (⟨[1#8, 2, 3, 4, 5, 6, 7]⟩ : Slice _ 2) 2 0 #v[0#8, 0])
    let (b, it) ← next debug64 it
    let (e, it) ← end_ debug64 it
    let (x, it) ← next debug64 it
    let (y, _) ← end_ debug64 it
    ok (a, b, e, x, y)) = ok (some #v[1, 3], none, some (#v[0, 5], 1), none, none) := by
  decide +kernel

set_option synthInstance.maxSize 2000 in
/-- A `stride_zip`: `next` keeps a vector back, `end` hands it out, once. -/
example : (do
    let z ← strideZip release64 (simdIter [1#8, 2, 3, 4, 5, 6] #v[0#8, 0, 0, 0])
    let (a, z) ← SIMDZippedIterator.next release64 z
    let (b, z) ← SIMDZippedIterator.end_ release64 z
    let (x, z) ← SIMDZippedIterator.next release64 z
    let (y, _) ← SIMDZippedIterator.end_ release64 z
    ok (a, b.isSome, x, y)) = ok ((none : Option (Vector (BitVec 8) 4 × Vector (BitVec 8) 4)), true, none, none) := by
  decide +kernel

set_option synthInstance.maxSize 2000 in
/-- Three scalars in an adapter with four lanes. -/
example : (do
    let (a, s) ← next release64 (simdAdapter [1#8, 2, 3] #v[0, 0, 0, 0])
    let (b, s) ← end_ release64 s
    let (x, s) ← next release64 s
    let (y, _) ← end_ release64 s
    ok (a, b.isSome, x, y)) =
      ok ((none : Option (Vector (BitVec 8) 4)), true, none, none) := by decide +kernel

end Faster
