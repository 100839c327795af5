import Verif.Props.StrideZipExact
/-
C34: `finalize` of a `stride_zip` (src/zip.rs:99-102 with src/stride_zip.rs:52-72).
-/
namespace Faster
open Res SIMDSized SIMDIterable SIMDIterator

section
variable {α : Type} [Packable α] {w : Nat} (c : Cfg) (l : List α) (d : Vector α w)

/-- **C34**, `stride_zip`, exactly what `finalize` does at every position of the inner iterator: it is
moved to the end of the last whole pair, counted from the position at which the `stride_zip` was
made as if nothing of the collection was before it. -/
theorem C34_stride_zip_finalize (b : Nat) (pk : Option (Vector α w)) (p : Nat) (hb : b ≤ p)
    (hp : p < c.usize) (hu : b + l.length + 1 < c.usize) :
    zfinalize c (pairsAt l d b pk p) =
      if l.length / 2 < (p - b) / 2 ∧ c.debug = true then panic
      else ok (pairsAt l d b pk (b + (p - b) % 2 + 2 * (l.length / 2))) := by
  have hsl : SIMDZippedIterator.scalarLen c (pairsAt l d b pk p) = ok (l.length / 2) := rfl
  have hpos : SIMDZippedIterator.scalarPos c (pairsAt l d b pk p) = ok ((p - b) / 2) := by
    simp only [SIMDZippedIterator.scalarPos, SIMDIterable.scalarPos, ok_bind, usub_ok hb]
  simp only [zfinalize, hsl, hpos, ok_bind, usub]
  by_cases h1 : (p - b) / 2 ≤ l.length / 2
  · rw [if_pos h1, if_neg (by omega)]
    simp only [ok_bind]
    rw [pairs_advance_ok c l d b pk p _ (by omega)]
    congr 2
    omega
  · rw [if_neg h1]
    by_cases h2 : c.debug = true
    · rw [if_pos h2, if_pos ⟨by omega, h2⟩]; rfl
    · rw [if_neg h2, if_neg (fun h => h2 h.2)]
      simp only [ok_bind, SIMDZippedIterator.advance, SIMDIterable.advance, SIMDIter.advance]
      have e1 : (c.usize + l.length / 2 - (p - b) / 2) % c.usize =
          c.usize - ((p - b) / 2 - l.length / 2) := by
        rw [Nat.mod_eq_of_lt (by omega)]
        omega
      generalize hk : (p - b) / 2 - l.length / 2 = k at e1
      have e2 : umul c 2 (c.usize - k) = ok (c.usize - 2 * k) := by
        unfold umul
        rw [if_neg (by omega), if_neg h2,
          show 2 * (c.usize - k) = c.usize - 2 * k + c.usize by omega, Nat.add_mod_right,
          Nat.mod_eq_of_lt (by omega)]
      have e3 : uadd c p (c.usize - 2 * k) = ok (p - 2 * k) := by
        unfold uadd
        rw [if_neg (by omega), if_neg h2,
          show p + (c.usize - 2 * k) = p - 2 * k + c.usize by omega, Nat.add_mod_right,
          Nat.mod_eq_of_lt (by omega)]
      rw [e1, e2]
      simp only [ok_bind]
      rw [e3]
      simp only [ok_bind]
      congr 3
      omega

/-- **C34**, `stride_zip` of a whole collection: after `finalize` nothing is delivered exactly if the
number of elements is even. -/
theorem C34_stride_zip_finalize_iff (p : Nat) (hp : p ≤ l.length) (he : p % 2 = 0) (hw : 0 < w)
    (hu : l.length + 2 * w < c.usize) :
    (∃ z, zfinalize c (pairsAt l d 0 none p) = ok z ∧
      SIMDZippedIterator.next c z = ok (none, z) ∧ SIMDZippedIterator.end_ c z = ok (none, z)) ↔
    l.length % 2 = 0 := by
  have hr := represents_slice (w := w) c l
  rw [C34_stride_zip_finalize c l d 0 none p (by omega) (by omega) (by omega), if_neg (by omega)]
  rw [show 0 + (p - 0) % 2 + 2 * (l.length / 2) = 2 * (l.length / 2) by omega]
  constructor
  · rintro ⟨z, h, h1, h2⟩
    cases h
    apply Nat.eq_zero_of_not_pos
    intro hodd
    by_cases hw1 : w = 1
    · subst hw1
      have e1 := simdIter_next_some hr (d := d) (p := 2 * (l.length / 2)) (by omega) (by omega)
      have e2 := simdIter_next_none hr (d := d) (p := 2 * (l.length / 2) + 1) (by omega) (by omega)
      simp only [SIMDZippedIterator.next, StrideZip.next, e1, e2, ok_bind, ok.injEq, Prod.mk.injEq,
        StrideZip.mk.injEq] at h1
      simp at h1
    · have e1 := simdIter_next_none hr (d := d) (p := 2 * (l.length / 2)) (by omega) (by omega)
      have e2 := simdIter_end_exact hr (2 * (l.length / 2)) d (by omega)
      rw [if_neg (by omega), if_neg (by omega)] at e2
      simp only [SIMDZippedIterator.end_, StrideZip.end_, e1, ok_bind] at h2
      split at e2
      · rw [e2, badAccess_bind, badAccess] at h2
        split at h2 <;> cases h2
      · rw [e2] at h2
        simp only [ok_bind, Option.getD_some] at h2
        rw [if_pos (by omega)] at h2
        simp at h2
  · intro heven
    have e0 : 2 * (l.length / 2) = l.length := by omega
    rw [e0]
    have e1 := simdIter_next_none hr (d := d) (p := l.length) (by omega) (by omega)
    have e2 := simdIter_end_exact hr l.length d (by omega)
    rw [if_pos (by omega)] at e2
    refine ⟨_, rfl, ?_, ?_⟩
    · simp only [SIMDZippedIterator.next, StrideZip.next, e1, ok_bind]
    · simp only [SIMDZippedIterator.end_, StrideZip.end_, e1, e2, ok_bind, Option.getD_none]
      rw [if_neg (by omega)]

/-- **C34**, `stride_zip` of an odd number of elements which are at most one vector: `finalize`, then
`end`. Safe calls only: undefined behaviour in release builds. -/
theorem C34_stride_zip_finalize_ub (hodd : l.length % 2 = 1) (h3 : 3 ≤ l.length)
    (hw : l.length ≤ w) (hu : l.length + 2 * w < c.usize) :
    ∃ z, zfinalize c (pairsAt l d 0 none 0) = ok z ∧
      SIMDZippedIterator.end_ c z = badAccess c := by
  have hr := represents_slice (w := w) c l
  rw [C34_stride_zip_finalize c l d 0 none 0 (by omega) (by omega) (by omega), if_neg (by omega)]
  refine ⟨_, rfl, ?_⟩
  rw [show 0 + (0 - 0) % 2 + 2 * (l.length / 2) = l.length - 1 by omega]
  have e1 := simdIter_next_none hr (d := d) (p := l.length - 1) (by omega) (by omega)
  have e2 := simdIter_end_exact hr (l.length - 1) d (by omega)
  rw [if_neg (by omega), if_neg (by omega), if_pos (by omega)] at e2
  simp only [SIMDZippedIterator.end_, StrideZip.end_, e1, e2, ok_bind, badAccess_bind]

end

/-- Three of four lanes, in a release build. -/
example : (do
    let z ← strideZip release64 (simdIter (w := 4) [1#8, 2, 3] (Vector.replicate 4 0))
    let z ← zfinalize release64 z
    let x ← SIMDZippedIterator.end_ release64 z
    ok x.1) = ub := by decide +kernel

/-- After `finalize` of a `stride_zip` made behind the first element, the inner iterator stands behind
the end. -/
example : (do
    let it ← advance release64 (simdIter (w := 2) [1#8, 2, 3, 4] #v[0, 0]) 1
    let z ← strideZip release64 it
    let z ← zfinalize release64 z
    ok z.iter.position) = ok 5 := by decide +kernel

end Faster
