import Verif.Props.Merge

/-!
C57, exactly: the outcome of `partition_mask` and of the blend version of `merge_partitioned` for
every offset and build, and the offsets for which memory behind the mask table is read.
-/

namespace Faster
open Res

variable {n w s : Nat}

/-- **C57**: `partition_mask` for every offset, in every build. -/
theorem C57_mask_outcome (c : Cfg) (hn : n = 8 * s) (hs : 0 < s) (hd : 64 % s = 0)
    (hws : w * s ≤ 64) (hw : 0 < w) (hc : 256 ≤ c.usize) {off : Nat} (hoff : off < c.usize) :
    (partitionMask c off : Res (Vector (BitVec n) w)) =
      if off ≤ w then ok (Vector.ofFn fun i => if i.val < off then 0#n else BitVec.allOnes n)
      else if c.debug = true then panic
      else if off ≤ 64 / s then ok (Vector.replicate w 0#n)
      else if c.usize - off + w ≤ 64 / s then ok (Vector.replicate w (BitVec.allOnes n))
      else if c.usize - off + w + 64 / s ≤ 128 then ub else panic := by
  obtain ⟨hw', h128, h64⟩ := size_bound hs hd hws
  have h64' : 64 / s ≤ 64 := Nat.div_le_self _ _
  by_cases h1 : off ≤ w
  · rw [if_pos h1, partitionMask_ok c hn hs hd hws (by omega) h1]
  rw [if_neg h1]
  rcases hdbg : c.debug with _ | _
  · rw [if_neg (by simp), partitionMask_release c hdbg hn]
    by_cases h2 : off ≤ 64 / s
    · rw [if_pos h2, usub_ok h2, ok_bind, loadPartMask_ok hn hd (by omega)]
      congr 1
      apply Vector.ext
      intro i hi
      have : 64 / s - off + i < 64 / s := by omega
      simp [this]
    · have heq : (c.usize + 64 / s - off) % c.usize = 64 / s + (c.usize - off) := by
        rw [Nat.mod_eq_of_lt] <;> omega
      rw [if_neg h2]
      simp only [usub, if_neg h2, hdbg, heq]
      simp only [Bool.false_eq_true, if_false, ok_bind]
      by_cases h3 : c.usize - off + w ≤ 64 / s
      · rw [if_pos h3, loadPartMask_ok hn hd (by omega)]
        congr 1
        apply Vector.ext
        intro i hi
        have : ¬ 64 / s + (c.usize - off) + i < 64 / s := by omega
        simp [this]
      · rw [if_neg h3]
        by_cases h4 : c.usize - off + w + 64 / s ≤ 128
        · rw [if_pos h4, loadPartMask_ub hn (by omega) (by omega) hw]
        · rw [if_neg h4, loadPartMask_panic (by omega)]
  · rw [if_pos rfl, partitionMask_debug c hdbg (by omega)]

example : (partitionMask release64 5 : Res (Vector (BitVec 32) 4)) = ok #v[0, 0, 0, 0] := by
  rw [C57_mask_outcome (s := 4) release64 rfl (by decide) (by decide) (by decide) (by decide)
    (by decide) (by decide)]
  decide +kernel

/-- **C57**, exactly: memory behind the table is read in release builds for the offsets
`2^64 - k` with `64 / SIZE < k + WIDTH` and `k + WIDTH ≤ 128 - 64 / SIZE`, and for no others; there
are none for one-byte lanes. The same for `merge_partitioned` of any two vectors. -/
theorem C57_iff (c : Cfg) (hn : n = 8 * s) (hs : 0 < s) (hd : 64 % s = 0)
    (hws : w * s ≤ 64) (hw : 0 < w) (hc : 256 ≤ c.usize) {off : Nat} (hoff : off < c.usize)
    (a b : Vector (BitVec n) w) :
    ((partitionMask c off : Res (Vector (BitVec n) w)) = ub ↔
      c.debug = false ∧ ∃ k, off + k = c.usize ∧ 64 / s < k + w ∧ k + w ≤ 128 - 64 / s) ∧
    (mergePartitionedBlend c a b off = ub ↔ (partitionMask c off : Res (Vector (BitVec n) w)) = ub) ∧
    (s = 1 → (partitionMask c off : Res (Vector (BitVec n) w)) ≠ ub) := by
  obtain ⟨hw', h128, h64⟩ := size_bound hs hd hws
  have h64' : 64 / s ≤ 64 := Nat.div_le_self _ _
  have key : (partitionMask c off : Res (Vector (BitVec n) w)) = ub ↔
      c.debug = false ∧ ∃ k, off + k = c.usize ∧ 64 / s < k + w ∧ k + w ≤ 128 - 64 / s := by
    rw [C57_mask_outcome c hn hs hd hws hw hc hoff]
    constructor
    · intro h
      split at h <;> try (simp at h; done)
      split at h <;> try (simp at h; done)
      split at h <;> try (simp at h; done)
      split at h <;> try (simp at h; done)
      split at h <;> try (simp at h; done)
      rename_i h1 h2 h3 h4 h5
      exact ⟨by simpa using h2, c.usize - off, by omega, by omega, by omega⟩
    · rintro ⟨hdbg, k, h1, h2, h3⟩
      rw [if_neg (by omega), if_neg (by simp [hdbg]), if_neg (by omega), if_neg (by omega),
        if_pos (by omega)]
  refine ⟨key, ?_, ?_⟩
  · unfold mergePartitionedBlend
    cases hp : (partitionMask c off : Res (Vector (BitVec n) w)) <;> simp
  · rintro rfl h
    obtain ⟨_, k, _, h2, h3⟩ := key.1 h
    omega

/-- Both kinds of offsets exist for `f64x2`: `2^64 - 7` reads behind the table, `2^64 - 6` does not
(it gives the second operand), nor does `2^64 - 119`, which panics. -/
example (a b : Vector (BitVec 64) 2) :
    mergePartitionedBlend release64 a b (2 ^ 64 - 7) = ub ∧
    mergePartitionedBlend release64 a b (2 ^ 64 - 6) ≠ ub ∧
    mergePartitionedBlend release64 a b (2 ^ 64 - 119) ≠ ub := by
  have h := fun off (ho : off < release64.usize) => C57_iff (s := 8) release64 rfl (by decide)
    (by decide) (by decide) (by decide) (by decide) ho a b
  have hz : release64.usize = 2 ^ 64 := rfl
  refine ⟨(h _ (by decide)).2.1.2 ((h _ (by decide)).1.2 ⟨rfl, 7, by decide, by decide, by decide⟩),
    fun e => ?_, fun e => ?_⟩
  · obtain ⟨_, k, h1, h2, h3⟩ := (h _ (by decide)).1.1 ((h _ (by decide)).2.1.1 e)
    rw [hz] at h1
    omega
  · obtain ⟨_, k, h1, h2, h3⟩ := (h _ (by decide)).1.1 ((h _ (by decide)).2.1.1 e)
    rw [hz] at h1
    omega

end Faster
