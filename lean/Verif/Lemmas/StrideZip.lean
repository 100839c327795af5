import Verif.Lemmas.Zip
import Verif.StrideZip
/-
Complete passes over `StrideZip` of a slice iterator.
-/
namespace Faster
open Res SIMDSized SIMDIterable SIMDIterator

/-- The consecutive pairs of a list. -/
def pairsOf {α : Type} (l : List α) : List (α × α) :=
  List.ofFn (n := l.length / 2) fun i => (l[2 * i.val], l[2 * i.val + 1])

/-- The pair of vectors of a vector of pairs. -/
def unzipV {α : Type} {w : Nat} (v : Vector (α × α) w) : Vector α w × Vector α w :=
  (v.map Prod.fst, v.map Prod.snd)

/-- The outcome of `end` after all full pairs of windows. -/
def pairTail {α : Type} {w : Nat} (d : Vector α w) (l : List α) :
    Option ((Vector α w × Vector α w) × Nat) :=
  let r := l.length % (2 * w)
  let rest := l.drop (l.length / (2 * w) * (2 * w))
  if r = 0 then none
  else if r < w then some (Packed.destrideTwo (padFront d rest) d, (w - r) / 2)
  else if r = w then some (Packed.destrideTwo (padFront d rest) d, w / 2)
  else some (Packed.destrideTwo (padFront d (rest.take w)) (padFront d (rest.drop w)),
    (w + (2 * w - r)) / 2)

variable {A α : Type} {w : Nat} [SIMDSized A] [SIMDArray A α w] [Packable α]

omit [Packable α] in
theorem destrideTwo_windows {l : List α} {p : Nat} (h : p * 2 + 2 * w ≤ l.length) :
    Packed.destrideTwo (windowAt l (p * 2) w (by omega)) (windowAt l (p * 2 + w) w (by omega)) =
      unzipV (windowAt (pairsOf l) p w (by simp [pairsOf]; omega)) := by
  have key : ∀ i (hi : i < w + w),
      (windowAt l (p * 2) w (by omega) ++ windowAt l (p * 2 + w) w (by omega))[i] =
        l[p * 2 + i] := by
    intro i hi
    rw [Vector.getElem_append]
    split
    · simp [windowAt]
    · simp only [windowAt, Vector.getElem_ofFn]
      congr 1; omega
  simp only [Packed.destrideTwo, unzipV]
  congr 1
  · ext i hi
    simp only [Vector.getElem_ofFn, key]
    simp only [windowAt, pairsOf, Vector.getElem_map, Vector.getElem_ofFn, List.getElem_ofFn]
    congr 1; omega
  · ext i hi
    simp only [Vector.getElem_ofFn, key]
    simp only [windowAt, pairsOf, Vector.getElem_map, Vector.getElem_ofFn, List.getElem_ofFn]
    congr 1; omega

section
variable {c : Cfg} {a : A} {l : List α} (h : Represents c a l) (d : Vector α w) (hw : 0 < w)
  (hu : l.length + 2 * w < c.usize)
include h hw hu

theorem strideZip_next (b p : Nat) (pk : Option (Vector α w)) :
    SIMDZippedIterator.next c (⟨b, pk, ⟨p * 2, a, d⟩⟩ : StrideZip (SIMDIter A α w) α w) =
      if h2 : p * 2 + 2 * w ≤ l.length then
        ok (some (unzipV (windowAt (pairsOf l) p w (by simp [pairsOf]; omega))),
          ⟨b, pk, ⟨(p + w) * 2, a, d⟩⟩)
      else if h1 : p * 2 + w ≤ l.length then
        ok (none, ⟨b, some (windowAt l (p * 2) w h1), ⟨p * 2 + w, a, d⟩⟩)
      else if p * 2 ≤ l.length then ok (none, ⟨b, pk, ⟨p * 2, a, d⟩⟩)
      else SIMDZippedIterator.next c (⟨b, pk, ⟨p * 2, a, d⟩⟩ : StrideZip (SIMDIter A α w) α w) := by
  by_cases h2 : p * 2 + 2 * w ≤ l.length
  · rw [dif_pos h2]
    have e1 := simdIter_next_some h (d := d) (p := p * 2) (by omega) (by omega)
    have e2 := simdIter_next_some h (d := d) (p := p * 2 + w) (by omega) (by omega)
    simp only [SIMDZippedIterator.next, StrideZip.next, e1, e2, ok_bind, destrideTwo_windows h2]
    rw [show (p + w) * 2 = p * 2 + w + w by omega]
  · rw [dif_neg h2]
    by_cases h1 : p * 2 + w ≤ l.length
    · rw [dif_pos h1]
      have e1 := simdIter_next_some h (d := d) (p := p * 2) (by omega) (by omega)
      have e2 := simdIter_next_none h (d := d) (p := p * 2 + w) (by omega) (by omega)
      simp only [SIMDZippedIterator.next, StrideZip.next, e1, e2, ok_bind]
    · rw [dif_neg h1]
      split
      · have e1 := simdIter_next_none h (d := d) (p := p * 2) (by omega) (by omega)
        simp only [SIMDZippedIterator.next, StrideZip.next, e1, ok_bind]
      · rfl

theorem strideZip_runs (b : Nat) : ∀ n p, p * 2 + n * (2 * w) + l.length % (2 * w) = l.length →
    ∃ z', ZRuns c (⟨b, none, ⟨p * 2, a, d⟩⟩ : StrideZip (SIMDIter A α w) α w)
      ((fullWindows w ((pairsOf l).drop p)).map unzipV) (ok z') ∧
      (let q := p * 2 + n * (2 * w)
       (l.length % (2 * w) < w → z' = ⟨b, none, ⟨q, a, d⟩⟩) ∧
       (∀ h1 : q + w ≤ l.length, z' = ⟨b, some (windowAt l q w h1), ⟨q + w, a, d⟩⟩)) := by
  intro n
  have hm := Nat.mod_lt l.length (show 0 < 2 * w by omega)
  induction n with
  | zero =>
    intro p hp
    rw [fullWindows_short (by simp [pairsOf]; omega)]
    simp only [Nat.zero_mul, Nat.add_zero, List.map_nil] at hp ⊢
    by_cases h1 : p * 2 + w ≤ l.length
    · refine ⟨⟨b, some (windowAt l (p * 2) w h1), ⟨p * 2 + w, a, d⟩⟩, ZRuns.done ?_, ?_, ?_⟩
      · rw [strideZip_next h d hw hu, dif_neg (by omega), dif_pos h1]
      · intro h3; omega
      · intro _; rfl
    · refine ⟨⟨b, none, ⟨p * 2, a, d⟩⟩, ZRuns.done ?_, ?_, ?_⟩
      · rw [strideZip_next h d hw hu, dif_neg (by omega), dif_neg h1, if_pos (by omega)]
      · intro _; rfl
      · intro h3; omega
  | succ n ih =>
    intro p hp
    have e : (n + 1) * (2 * w) = n * (2 * w) + 2 * w := Nat.succ_mul ..
    have e3 : (p + w) * 2 = p * 2 + 2 * w := by omega
    obtain ⟨z', h1, h2⟩ := ih (p + w) (by omega)
    refine ⟨z', ?_, ?_⟩
    · rw [fullWindows_cons hw (by simp [pairsOf]; omega), List.drop_drop, List.map_cons]
      refine ZRuns.step ?_ h1
      rw [strideZip_next h d hw hu, dif_pos (by omega)]
      congr 4
      ext i hi <;> simp [windowAt]
    · have e2 : (p + w) * 2 + n * (2 * w) = p * 2 + (n + 1) * (2 * w) := by omega
      simp only [e2] at h2
      exact h2

/-- A complete pass over `stride_zip` of a fresh slice iterator. -/
theorem strideZip_emits :
    ZEmits c (⟨0, none, ⟨0, a, d⟩⟩ : StrideZip (SIMDIter A α w) α w)
      ((fullWindows w (pairsOf l)).map unzipV)
      (ok (pairTail d l, ⟨0, none, ⟨l.length, a, d⟩⟩)) := by
  have hm := Nat.mod_lt l.length (show 0 < 2 * w by omega)
  have hdm := Nat.div_add_mod l.length (2 * w)
  rw [Nat.mul_comm] at hdm
  obtain ⟨z', h1, h2, h3⟩ := strideZip_runs h d hw hu 0 (l.length / (2 * w)) 0 (by omega)
  simp only [Nat.zero_mul, Nat.zero_add, List.drop_zero] at h1 h2 h3
  refine ⟨_, h1, ?_⟩
  simp only [ok_bind, pairTail]
  generalize hq : l.length / (2 * w) * (2 * w) = q at *
  generalize hr : l.length % (2 * w) = r at *
  by_cases hrw : r < w
  · rw [h2 hrw]
    have e1 := simdIter_next_none h (d := d) (p := q) (by omega) (by omega)
    have e2 := simdIter_end_exact h q d (by omega)
    simp only [SIMDZippedIterator.end_, StrideZip.end_, e1, ok_bind]
    by_cases h0 : r = 0
    · rw [if_pos (by omega)] at e2
      simp only [e2, ok_bind, Option.getD_none, if_pos h0, Nat.lt_irrefl, gt_iff_lt, if_false]
      rw [show q = l.length by omega]
    · rw [if_neg (by omega), if_neg (by omega)] at e2
      have hnot : ¬ (0 < q ∧ l.length ≤ w) := by
        rintro ⟨h4, h5⟩
        have : 1 ≤ l.length / (2 * w) := by
          rcases Nat.eq_zero_or_pos (l.length / (2 * w)) with h6 | h6
          · rw [h6] at hq; omega
          · exact h6
        have : 1 * (2 * w) ≤ l.length / (2 * w) * (2 * w) := Nat.mul_le_mul_right _ this
        omega
      rw [if_neg hnot] at e2
      simp only [e2, ok_bind, Option.getD_some]
      rw [if_neg h0, if_pos hrw, if_pos (by omega), show l.length - q = r by omega]
      rfl
  · rw [h3 (by omega)]
    have e1 := simdIter_next_none h (d := d) (p := q + w) (by omega) (by omega)
    have e2 := simdIter_end_exact h (q + w) d (by omega)
    have ew : windowAt l q w (by omega) = padFront d ((l.drop q).take w) := by
      rw [padFront_full _ _ (by simp; omega)]
      ext i hi
      simp [windowAt]
    simp only [SIMDZippedIterator.end_, StrideZip.end_, e1, ok_bind]
    by_cases h0 : r = w
    · rw [if_pos (by omega)] at e2
      simp only [e2, ok_bind, Option.getD_none]
      rw [uadd_ok (by omega)]
      simp only [ok_bind]
      rw [if_neg (by omega), if_neg hrw, if_pos h0, ew, List.take_of_length_le (by simp; omega),
        show q + w = l.length by omega]
      rfl
    · rw [if_neg (by omega), if_neg (by omega), if_neg (by omega)] at e2
      simp only [e2, ok_bind, Option.getD_some]
      rw [uadd_ok (by omega)]
      simp only [ok_bind]
      rw [if_neg (by omega), if_neg hrw, if_neg h0, ew, List.drop_drop,
        show w - (l.length - (q + w)) = 2 * w - r by omega]

end
end Faster
