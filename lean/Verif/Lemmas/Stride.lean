import Verif.Lemmas.Driver
import Verif.Stride
/-
Strided iterators.
-/
namespace Faster
open Res SIMDSized SIMDIterable SIMDIterator

theorem strided_index {k s i n : Nat} (hk : k < s) (hi : i < n / s) : k + s * i < n := by
  have h1 : s * (i + 1) ≤ s * (n / s) := Nat.mul_le_mul_left s hi
  have h2 := Nat.mul_div_le n s
  rw [Nat.mul_succ] at h1
  omega

/-- The elements with indices `k, k+s, k+2s, …` of `l`, one from each complete
group of `s` elements. -/
def strided {α : Type} (s k : Nat) (l : List α) (hk : k < s) : List α :=
  List.ofFn (n := l.length / s) fun i => l[k + s * i.val]'(strided_index hk i.isLt)

@[simp] theorem strided_length {α : Type} (s k : Nat) (l : List α) (hk : k < s) :
    (strided s k l hk).length = l.length / s := by simp [strided]

theorem strided_getElem {α : Type} (s k : Nat) (l : List α) (hk : k < s) (i : Nat)
    (h : i < (strided s k l hk).length) :
    (strided s k l hk)[i] = l[k + s * i]'(strided_index hk (by simpa using h)) := by
  simp [strided]

theorem replace_ok {α : Type} {w : Nat} {v : Vector α w} {i : Nat} {x : α} (h : i < w) :
    Packed.replace v i x = ok (v.set i x) := by simp [Packed.replace, h]

section
variable {A α : Type} {w : Nat} [SIMDSized A] [SIMDArray A α w] [Packable α]

omit [Packable α] in
theorem strideLoop_ok {c : Cfg} {a : A} {l : List α} (h : Represents c a l) (idx : Nat → Res Nat)
    (ix : Nat → Nat) (hidx : ∀ i, i < w → idx i = ok (ix i)) (hix : ∀ i, i < w → ix i < l.length) :
    ∀ (n i : Nat) (ret : Vector α w), i + n = w →
      strideLoop c a idx n i ret = ok (Vector.ofFn fun j =>
        if j.val < i then ret[j] else l[ix j.val]'(hix _ j.isLt)) := by
  intro n
  induction n with
  | zero =>
    intro i ret hi
    simp only [strideLoop]
    congr 1
    ext j hj
    simp [show j < i by omega]
  | succ n ih =>
    intro i ret hi
    simp only [strideLoop, hidx i (by omega), ok_bind]
    rw [h.loadScalarUnchecked _ (hix i (by omega))]
    simp only [ok_bind]
    rw [replace_ok (by omega)]
    simp only [ok_bind]
    rw [ih (i + 1) _ (by omega)]
    congr 1
    ext j hj
    simp only [Vector.getElem_ofFn, Fin.getElem_fin, Vector.getElem_set]
    by_cases h3 : j < i
    · rw [if_pos (by omega), if_neg (by omega), if_pos h3]
    · by_cases h4 : i = j
      · subst h4; simp
      · rw [if_neg (by omega), if_neg h3]

/-- A loaded vector of strided elements. -/
theorem strideLoop_window {c : Cfg} {a : A} {l : List α} (h : Represents c a l)
    {s k o : Nat} (hk : k < s) (ho : o + w ≤ (strided s k l hk).length) (idx : Nat → Res Nat)
    (hidx : ∀ i, i < w → idx i = ok (k + s * (o + i))) :
    strideLoop c a idx w 0 Packed.default = ok (windowAt (strided s k l hk) o w ho) := by
  rw [strided_length] at ho
  rw [strideLoop_ok h idx (fun i => k + s * (o + i)) hidx
    (fun i hi => strided_index hk (by omega)) w 0 _ (by omega)]
  congr 1
  ext j hj
  simp [windowAt, strided_getElem]

/-- A strided iterator, as an array, represents the strided list. -/
theorem represents_stride {c : Cfg} {a : A} {l : List α} (h : Represents c a l) {s k : Nat}
    (hk : k < s) (p : Nat) (d : Vector α w) (hw : 0 < w) (hu : l.length + s * (w + 1) < c.usize) :
    Represents c (⟨a, p, k, s, d⟩ : PackedStride A α w) (strided s k l hk) where
  scalarLen := by
    simp only [SIMDSized.scalarLen, h.scalarLen, ok_bind]
    rw [udiv_ok (by omega), strided_length]
  loadUnchecked o ho := by
    have ho' := ho
    rw [strided_length] at ho'
    have hlast : s * (o + (w - 1)) + k < l.length := by
      have := strided_index (i := o + (w - 1)) (n := l.length) hk (by omega)
      omega
    have hge : o ≤ s * o := Nat.le_mul_of_pos_left o (by omega)
    have e1 : s * (o + (w - 1)) = s * o + s * (w - 1) := Nat.mul_add _ _ _
    simp only [SIMDArray.loadUnchecked, PackedStride.loadUnchecked]
    rw [strideLoop_window h hk ho]
    · cases c.debug
      · simp
      · simp only [if_true]
        rw [usub_ok (by omega)]
        simp only [ok_bind]
        rw [umul_ok (by omega)]
        simp only [ok_bind]
        rw [uadd_ok (by omega), h.scalarLen]
        simp only [ok_bind]
        rw [show decide (o + s * (w - 1) < l.length) = true by simp; omega]
        simp [assert]
    · intro i hi
      have : k + s * (o + i) < l.length := strided_index hk (by omega)
      have : o + i ≤ s * (o + i) := Nat.le_mul_of_pos_left _ (by omega)
      rw [uadd_ok (by omega)]
      simp only [ok_bind]
      rw [umul_ok (by omega)]
      simp only [ok_bind]
      rw [uadd_ok (by omega)]
  loadScalarUnchecked i hi := by
    have hi' := hi
    rw [strided_length] at hi'
    have hlt : k + s * i < l.length := strided_index hk hi'
    simp only [SIMDArray.loadScalarUnchecked]
    rw [umul_ok (by rw [Nat.mul_comm]; omega)]
    simp only [ok_bind]
    rw [Nat.mul_comm, uadd_ok (by omega)]
    simp only [ok_bind]
    rw [h.loadScalarUnchecked _ hlt, strided_getElem]

/-- A strided iterator walks over the strided list. -/
theorem stride_driver {c : Cfg} {a : A} {l : List α} (h : Represents c a l) {s k : Nat}
    (hk : k < s) (d : Vector α w) (hw : 0 < w) (hu : l.length + s * (w + 1) < c.usize) :
    Driver c (fun p => (⟨a, k + s * p, k, s, d⟩ : PackedStride A α w)) (strided s k l hk) d
      (fun p => k + s * (p + w) < l.length) := by
  have hs : 0 < s := by omega
  have hpos : ∀ p, scalarPos c (⟨a, k + s * p, k, s, d⟩ : PackedStride A α w) = ok p := by
    intro p
    simp only [SIMDIterable.scalarPos]
    rw [usub_ok (by omega)]
    simp only [ok_bind]
    rw [udiv_ok hs, Nat.add_sub_cancel_left, Nat.mul_div_cancel_left _ hs]
  have hfew : ∀ p, ¬ k + s * (p + w) < l.length → (strided s k l hk).length ≤ p + w := by
    intro p hm
    rw [strided_length]
    apply Nat.le_of_lt_succ
    rw [Nat.div_lt_iff_lt_mul hs, Nat.succ_mul, Nat.mul_comm]
    omega
  have hadv : ∀ p q, k + s * (p + q) < c.usize →
      advance c (⟨a, k + s * p, k, s, d⟩ : PackedStride A α w) q =
        ok ⟨a, k + s * (p + q), k, s, d⟩ := by
    intro p q hq
    rw [Nat.mul_add] at hq
    simp only [SIMDIterable.advance, PackedStride.advance]
    rw [umul_ok (by rw [Nat.mul_comm]; omega)]
    simp only [ok_bind]
    rw [Nat.mul_comm q, uadd_ok (by omega)]
    simp only [ok_bind]
    rw [Nat.mul_add, Nat.add_assoc]
  have hbound : ∀ p, p ≤ l.length / s → k + s * p < c.usize ∧ k + s * (p + w) < c.usize := by
    intro p hp
    have h1 : s * p ≤ s * (l.length / s) := Nat.mul_le_mul_left s hp
    have h2 := Nat.mul_div_le l.length s
    rw [Nat.mul_add]
    rw [Nat.mul_succ] at hu
    omega
  refine ⟨fun p _ => hpos p, ?_, fun _ => rfl, ?_, ?_, hfew, ?_⟩
  · intro p
    simp only [SIMDIterable.len, vectorLen, h.scalarLen, ok_bind]
    rw [udiv_ok hw]
    simp only [ok_bind]
    rw [udiv_ok hs, strided_length, Nat.div_div_eq_div_mul, Nat.div_div_eq_div_mul, Nat.mul_comm]
  · intro p hm
    have hle : p + w ≤ (strided s k l hk).length := by
      rw [strided_length, Nat.le_div_iff_mul_le hs, Nat.mul_comm]
      omega
    refine ⟨hle, ?_⟩
    have hm' := hm
    rw [Nat.mul_add] at hm
    simp only [SIMDIterable.next, PackedStride.next]
    rw [umul_ok (by omega)]
    simp only [ok_bind]
    rw [uadd_ok (by omega), h.scalarLen]
    simp only [ok_bind]
    rw [if_pos (by omega), strideLoop_window h hk hle]
    · simp only [ok_bind]
      have := hadv p w (by omega)
      simp only [SIMDIterable.advance] at this
      rw [this]
      rfl
    · intro i hi
      have e : s * i ≤ s * w := Nat.mul_le_mul_left s (by omega)
      rw [umul_ok (by omega)]
      simp only [ok_bind]
      rw [uadd_ok (by omega), Nat.mul_add, Nat.add_assoc]
  · intro p hp hm
    rw [strided_length] at hp
    have hb := hbound p hp
    rw [Nat.mul_add] at hm hb
    simp only [SIMDIterable.next, PackedStride.next]
    rw [umul_ok (by omega)]
    simp only [ok_bind]
    rw [uadd_ok (by omega), h.scalarLen]
    simp only [ok_bind]
    rw [if_neg (by omega)]
  · intro p hp hm hs2
    have hr := hfew p hm
    have h1 : w + 1 ≤ s * (w + 1) := Nat.le_mul_of_pos_left _ hs
    have hpl := hp
    rw [strided_length] at hpl
    have e := blanketEnd_ok (t' := ⟨a, k + s * (strided s k l hk).length, k, s, d⟩)
      (represents_stride h hk (k + s * p) d hw hu) (hpos p)
      (by
        have := hadv p ((strided s k l hk).length - p) (by
          rw [strided_length, Nat.add_sub_cancel' hpl]
          exact (hbound _ (Nat.le_refl _)).1)
        rw [this, strided_length, Nat.add_sub_cancel' hpl])
      (by omega) hs2 (by omega)
    exact e

end
end Faster
