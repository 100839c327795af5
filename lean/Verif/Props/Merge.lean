import Verif.Lemmas.Merge
/-
Merges and pattern constructors: C35, C36, C37, C57.

Lane types are `BitVec n` with `n = 8 * s` (`s` bytes); `64 % s = 0` and
`w * s ≤ 64` hold for every vector type of the crate (s ∈ {1, 2, 4, 8}, 16, 32
or 64 bytes).
-/
namespace Faster
open Res

variable {α : Type} {n w s : Nat}

/-! ## C35: merges select the documented lanes -/

/-- Specification: lane `i` from `a` where `p i`, otherwise from `b`. -/
def select (p : Nat → Bool) (a b : Vector α w) : Vector α w :=
  Vector.ofFn fun i => if p i then a[i] else b[i]

theorem blendLanes_select (a b mask : Vector (BitVec n) w) (hn : n = 8 * s) (p : Nat → Bool)
    (hs : 0 < s) (hm : ∀ i (h : i < w), mask[i] = if p i then 0#n else BitVec.allOnes n) :
    blendLanes a b mask = select p a b := by
  apply Vector.ext
  intro i hi
  have h := hm i hi
  rw [blendLanes_getElem a b mask hn hi (by rw [h]; split <;> simp), h]
  have := allOnes_ne_zero (n := n) (by omega)
  cases hp : p i <;> simp [select, hp, this]

/-- C35, `merge_halves`: first half of `a`, second half of `b`, for the fallback
(every lane type, every even width). -/
theorem C35_halves_fallback (c : Cfg) (a b : Vector α w) :
    mergeHalvesFallback c a b = ok (select (fun i => i < w / 2) a b) := by
  refine newLanes_getElem _ ?_ ?_
  · simp; omega
  · intro i hi
    by_cases h : i < w / 2
    · rw [List.getElem_append_left (by simpa using h)]
      simp [select, h, extractUnchecked_ok hi]
    · rw [List.getElem_append_right (by simpa using h)]
      have : w / 2 + (i - w / 2) = i := by omega
      simp [select, h, this, extractUnchecked_ok hi]

/-- C35, `merge_halves`, SSE4.1/AVX2 blend version. -/
theorem C35_halves_blend (hn : n = 8 * s) (hs : 0 < s) (a b : Vector (BitVec n) w) :
    mergeHalvesBlend a b = select (fun i => i < w / 2) a b :=
  blendLanes_select _ _ _ hn _ hs fun i hi => by simp [halfs]

/-- C35, `merge_interleaved`, fallback: even lanes of `a`, odd lanes of `b`. -/
theorem C35_interleaved_fallback (c : Cfg) (hw : w % 2 = 0) (a b : Vector α w) :
    mergeInterleavedFallback c a b = ok (select (fun i => i % 2 = 0) a b) := by
  unfold mergeInterleavedFallback
  rw [flatMap_pair]
  refine newLanes_getElem _ ?_ ?_
  · simp; omega
  · intro i hi
    by_cases h : i % 2 = 0
    · have h2 : 2 * (i / 2) = i := by omega
      simp [select, h, h2, extractUnchecked_ok hi]
    · have h2 : 2 * (i / 2) + 1 = i := by omega
      simp [select, h, h2, extractUnchecked_ok hi]

/-- C35, `merge_interleaved`, SSE4.1/AVX2 blend version. -/
theorem C35_interleaved_blend (hn : n = 8 * s) (hs : 0 < s) (a b : Vector (BitVec n) w) :
    mergeInterleavedBlend a b = select (fun i => i % 2 = 0) a b :=
  blendLanes_select _ _ _ hn _ hs fun i hi => by simp [interleave]

/-- C35, `merge_partitioned`, fallback: the first `off` lanes of `a`, the rest of `b`. -/
theorem C35_partitioned_fallback (c : Cfg) (a b : Vector α w) {off : Nat} (ho : off < w) :
    Packed.mergePartitioned c a b off = ok (select (fun i => i < off) a b) := by
  rw [mergePartitioned_ok c a b off ho]
  simp [select]

/-- C35, `merge_partitioned`, SSE4.1/AVX2 blend version (also for `off = WIDTH`). -/
theorem C35_partitioned_blend (c : Cfg) (hn : n = 8 * s) (hs : 0 < s) (hd : 64 % s = 0)
    (hws : w * s ≤ 64) (hc : 64 < c.usize) (a b : Vector (BitVec n) w) {off : Nat} (ho : off ≤ w) :
    mergePartitionedBlend c a b off = ok (select (fun i => i < off) a b) := by
  simp only [mergePartitionedBlend, partitionMask_ok c hn hs hd hws hc ho, ok_bind]
  rw [blendLanes_select _ _ _ hn (fun i => i < off) hs]
  intro i hi
  simp

/-- C35: the blend and fallback versions agree on all inputs, in every build. -/
theorem C35 (c : Cfg) (hn : n = 8 * s) (hs : 0 < s) (hd : 64 % s = 0) (hws : w * s ≤ 64)
    (hw : w % 2 = 0) (hc : 64 < c.usize) (a b : Vector (BitVec n) w) :
    mergeHalvesFallback c a b = ok (mergeHalvesBlend a b) ∧
    mergeInterleavedFallback c a b = ok (mergeInterleavedBlend a b) ∧
    ∀ off, off < w → Packed.mergePartitioned c a b off = mergePartitionedBlend c a b off := by
  refine ⟨?_, ?_, fun off ho => ?_⟩
  · rw [C35_halves_fallback, C35_halves_blend hn hs]
  · rw [C35_interleaved_fallback c hw, C35_interleaved_blend hn hs]
  · rw [C35_partitioned_fallback c a b ho, C35_partitioned_blend c hn hs hd hws hc a b (by omega)]

/-- Lanes of the specification, for reference. -/
theorem select_getElem (p : Nat → Bool) (a b : Vector α w) (i : Nat) (h : i < w) :
    (select p a b)[i] = if p i then a[i] else b[i] := by simp [select]

-- Non-vacuity: u32x4 with asymmetric data.
example : mergePartitionedBlend debug64 #v[1#32, 2#32, 3#32, 4#32] #v[5#32, 6#32, 7#32, 8#32] 1 =
    ok #v[1#32, 6#32, 7#32, 8#32] := by decide +kernel
example : mergeHalvesBlend #v[1#32, 2#32, 3#32, 4#32] #v[5#32, 6#32, 7#32, 8#32] =
    #v[1#32, 2#32, 7#32, 8#32] := by decide +kernel
example : mergeInterleavedFallback debug64 #v[1#32, 2#32, 3#32, 4#32] #v[5#32, 6#32, 7#32, 8#32] =
    ok #v[1#32, 6#32, 3#32, 8#32] := by decide +kernel

/-! ## C36: accepted offsets depend on the target -/

/-- C36 fails for every type, in debug and release builds: offset `WIDTH` panics
in the fallback and is accepted by the blend version. -/
theorem C36_false (c : Cfg) (hn : n = 8 * s) (hs : 0 < s) (hd : 64 % s = 0)
    (hws : w * s ≤ 64) (hc : 64 < c.usize) (a b : Vector (BitVec n) w) :
    Packed.mergePartitioned c a b w = panic ∧ mergePartitionedBlend c a b w = ok a := by
  refine ⟨by simp [Packed.mergePartitioned], ?_⟩
  rw [C35_partitioned_blend c hn hs hd hws hc a b (Nat.le_refl _)]
  congr 1
  apply Vector.ext
  intro i hi
  simp [select]

/-- C36 also fails in release builds for `WIDTH < off ≤ 64 / SIZE`: the fallback
panics, the blend version returns `self` unchanged. -/
theorem C36_release_false (c : Cfg) (hdbg : c.debug = false) (hn : n = 8 * s) (hs : 0 < s)
    (hd : 64 % s = 0) (hws : w * s ≤ 64) (a b : Vector (BitVec n) w) {off : Nat}
    (ho : w < off) (ho' : off ≤ 64 / s) :
    Packed.mergePartitioned c a b off = panic ∧ mergePartitionedBlend c a b off = ok a := by
  obtain ⟨hw, h128, _⟩ := size_bound hs hd hws
  have hnlt : ¬ off < w := by omega
  refine ⟨by simp [Packed.mergePartitioned, hnlt], ?_⟩
  unfold mergePartitionedBlend
  rw [partitionMask_release c hdbg hn, usub_ok ho', ok_bind,
    loadPartMask_ok hn hd (by omega), ok_bind]
  rw [blendLanes_select a b _ hn (fun _ => true) hs]
  · congr 1
    apply Vector.ext
    intro i hi
    simp [select]
  · intro i hi
    have : 64 / s - off + i < 64 / s := by omega
    simp [this]

/-- C36, what holds: below `WIDTH` both versions return normally; above `WIDTH`
both panic in debug builds, and the fallback panics in every build. Missing:
offset `WIDTH` itself and release builds above it, where the versions differ
(`C36_false`, `C36_release_false`, `C57_false`). -/
theorem C36_partial (c : Cfg) (hn : n = 8 * s) (hs : 0 < s) (hd : 64 % s = 0)
    (hws : w * s ≤ 64) (hc : 64 < c.usize) (a b : Vector (BitVec n) w) (off : Nat) :
    (off < w → (∃ v, Packed.mergePartitioned c a b off = ok v) ∧
        ∃ v, mergePartitionedBlend c a b off = ok v) ∧
    (w ≤ off → Packed.mergePartitioned c a b off = panic) ∧
    (w < off → c.debug = true → mergePartitionedBlend c a b off = panic) := by
  refine ⟨fun h => ⟨⟨_, C35_partitioned_fallback c a b h⟩,
    ⟨_, C35_partitioned_blend c hn hs hd hws hc a b (by omega)⟩⟩, fun h => ?_, fun h hdbg => ?_⟩
  · have : ¬ off < w := by omega
    simp [Packed.mergePartitioned, this]
  · simp [mergePartitionedBlend, partitionMask_debug c hdbg h]

example : Packed.mergePartitioned release64 #v[1#64, 2#64] #v[3#64, 4#64] 2 = panic ∧
    mergePartitionedBlend release64 #v[1#64, 2#64] #v[3#64, 4#64] 2 = ok #v[1#64, 2#64] := by
  decide +kernel

/-! ## C37: pattern constructors -/

/-- C37: `halfs`, `interleave`, `ones`, `zeroes` have the documented lanes. -/
theorem C37_constant_patterns (hi lo : α) (i : Nat) (h : i < w) :
    (halfs hi lo : Vector α w)[i] = (if i < w / 2 then hi else lo) ∧
    (interleave hi lo : Vector α w)[i] = (if i % 2 = 0 then hi else lo) ∧
    (∀ k, k < n → ((ones : Vector (BitVec n) w)[i]).getLsbD k = true) ∧
    (∀ k, ((zeroes : Vector (BitVec n) w)[i]).getLsbD k = false) := by
  refine ⟨by simp [halfs], by simp [interleave], ?_, ?_⟩
  · intro k hk; simp [ones, Packed.splat, hk]
  · intro k; simp [zeroes, Packed.splat]

/-- C37, `partition_mask`: the first `off` lanes have no bit set, the others all. -/
theorem C37_partition_mask (c : Cfg) (hn : n = 8 * s) (hs : 0 < s) (hd : 64 % s = 0)
    (hws : w * s ≤ 64) (hc : 64 < c.usize) {off : Nat} (ho : off ≤ w) :
    ∃ v : Vector (BitVec n) w, partitionMask c off = ok v ∧
      ∀ i (h : i < w) k, k < n → v[i].getLsbD k = decide (off ≤ i) := by
  refine ⟨_, partitionMask_ok c hn hs hd hws hc ho, ?_⟩
  intro i h k hk
  by_cases hi : i < off
  · simp [hi]
  · simp [hi, hk]; omega

/-- C37, `partition`: for `off ≤ WIDTH` the table and the blend version return the
first `off` lanes `hi`, the others `lo`. -/
theorem C37_partition (c : Cfg) (hn : n = 8 * s) (hs : 0 < s) (hd : 64 % s = 0)
    (hws : w * s ≤ 64) (hc : 64 < c.usize) (hi lo : BitVec n) {off : Nat} (ho : off ≤ w) :
    partitionBlend c hi lo off = partitionTable (w := w) hi lo off ∧
    ∃ v : Vector (BitVec n) w, partitionTable hi lo off = ok v ∧
      ∀ i (h : i < w), v[i] = if i < off then hi else lo := by
  have ht : partitionTable (w := w) hi lo off =
      ok (Vector.ofFn fun i => if i.val < off then hi else lo) := by
    simp [partitionTable, ho]
  refine ⟨?_, _, ht, ?_⟩
  · rw [ht]
    simp only [partitionBlend, partitionMask_ok c hn hs hd hws hc ho, ok_bind]
    rw [blendLanes_select _ _ _ hn (fun i => i < off) hs (by intro i h; simp)]
    congr 1
    apply Vector.ext
    intro i h
    simp [select, Packed.splat]
  · intro i h
    simp

/-- C37, table version: larger offsets panic in every build; so do the mask and
the blend version in debug builds. -/
theorem C37_large_offset (c : Cfg) (hi lo : BitVec n) {off : Nat} (ho : w < off) :
    partitionTable (w := w) hi lo off = panic ∧
    (c.debug = true → partitionBlend (w := w) c hi lo off = panic ∧
      (partitionMask c off : Res (Vector (BitVec n) w)) = panic) := by
  have : ¬ off ≤ w := by omega
  refine ⟨by simp [partitionTable, this], fun hdbg => ⟨?_, partitionMask_debug c hdbg ho⟩⟩
  simp [partitionBlend, partitionMask_debug c hdbg ho]

/-- C37 fails for the blend version in release builds: offsets between `WIDTH`
and `64 / SIZE` do not panic but return a vector full of `hi`. -/
theorem C37_false (c : Cfg) (hdbg : c.debug = false) (hn : n = 8 * s) (hs : 0 < s)
    (hd : 64 % s = 0) (hws : w * s ≤ 64) (hi lo : BitVec n) {off : Nat}
    (ho : w < off) (ho' : off ≤ 64 / s) :
    partitionBlend (w := w) c hi lo off = ok (Packed.splat hi) := by
  have h := (C36_release_false c hdbg hn hs hd hws (Packed.splat hi) (Packed.splat lo) ho ho').2
  exact h

example : partitionBlend release64 7#32 9#32 5 = ok #v[7#32, 7#32, 7#32, 7#32] := by decide +kernel

/-- C37, what holds on every target and in every build: the documented lanes for
`off ≤ WIDTH`. Missing: the panic for larger offsets in release builds of the
blend version (`C37_false`). -/
theorem C37_partial (c : Cfg) (hn : n = 8 * s) (hs : 0 < s) (hd : 64 % s = 0)
    (hws : w * s ≤ 64) (hc : 64 < c.usize) (hi lo : BitVec n) {off : Nat} (ho : off ≤ w) :
    ∃ v : Vector (BitVec n) w, partitionBlend c hi lo off = ok v ∧
      partitionTable hi lo off = ok v ∧ ∀ i (h : i < w), v[i] = if i < off then hi else lo := by
  obtain ⟨h1, v, h2, h3⟩ := C37_partition c hn hs hd hws hc hi lo ho
  exact ⟨v, h1.trans h2, h2, h3⟩

/-! ## C57: the mask table is read within bounds -/

/-- C57 fails in release builds for lanes of more than one byte: the length of
the transmuted mask slice is still 128, so an offset just below `2^64` passes
the bounds checks and reads memory behind the 128-byte table. -/
theorem C57_false (c : Cfg) (hdbg : c.debug = false) (hn : n = 8 * s) (hs : 1 < s)
    (hd : 64 % s = 0) (hws : w * s ≤ 64) (hw : 0 < w) (hc : 256 ≤ c.usize)
    (a b : Vector (BitVec n) w) {k : Nat} (hk : 64 / s < k + w) (hk' : 64 / s + k + w ≤ 128) :
    (partitionMask c (c.usize - k) : Res (Vector (BitVec n) w)) = ub ∧
    mergePartitionedBlend c a b (c.usize - k) = ub := by
  obtain ⟨hw', h128, h64⟩ := size_bound (by omega) hd hws
  have h64' : 64 / s ≤ 64 := Nat.div_le_self _ _
  have hk0 : 0 < k := by omega
  have hmask : (partitionMask c (c.usize - k) : Res (Vector (BitVec n) w)) = ub := by
    rw [partitionMask_release c hdbg hn]
    have hlt : ¬ c.usize - k ≤ 64 / s := by omega
    have heq : (c.usize + 64 / s - (c.usize - k)) % c.usize = 64 / s + k := by
      rw [Nat.mod_eq_of_lt] <;> omega
    simp only [usub, if_neg hlt, hdbg, heq]
    exact loadPartMask_ub hn (by omega) (by omega) hw
  exact ⟨hmask, by simp [mergePartitionedBlend, hmask]⟩

/-- Instance: `f64x2`/`u64x2`, release build, `merge_partitioned(other, 2^64 - 7)`. -/
example (a b : Vector (BitVec 64) 2) : mergePartitionedBlend release64 a b (2 ^ 64 - 7) = ub :=
  (C57_false (s := 8) release64 rfl rfl (by decide) (by decide) (by decide) (by decide) (by decide)
    a b (k := 7) (by decide) (by decide)).2

/-- C57, what holds: no out-of-bounds read in debug builds, for one-byte lanes,
or for any offset up to `usize::MAX - 128`; missing: release builds with offsets
close to `2^64` and wider lanes (`C57_false`). -/
theorem C57_partial (c : Cfg) (hn : n = 8 * s) (hs : 0 < s) (hd : 64 % s = 0)
    (hws : w * s ≤ 64) (hw : 0 < w) (hc : 256 ≤ c.usize) (a b : Vector (BitVec n) w) {off : Nat}
    (ho : c.debug = true ∨ s = 1 ∨ off + 128 ≤ c.usize) (hoff : off < c.usize) :
    (partitionMask c off : Res (Vector (BitVec n) w)) ≠ ub ∧
    mergePartitionedBlend c a b off ≠ ub := by
  obtain ⟨hw', h128, h64⟩ := size_bound hs hd hws
  have h64' : 64 / s ≤ 64 := Nat.div_le_self _ _
  have hmask : (partitionMask c off : Res (Vector (BitVec n) w)) ≠ ub := by
    by_cases h1 : off ≤ w
    · rw [partitionMask_ok c hn hs hd hws (by omega) h1]; simp
    · rcases hdbg : c.debug with _ | _
      · rw [partitionMask_release c hdbg hn]
        by_cases h2 : off ≤ 64 / s
        · rw [usub_ok h2, ok_bind, loadPartMask_ok hn hd (by omega)]; simp
        · have heq : (c.usize + 64 / s - off) % c.usize = c.usize + 64 / s - off :=
            Nat.mod_eq_of_lt (by omega)
          simp only [usub, if_neg h2, hdbg, heq]
          simp only [Bool.false_eq_true, if_false, ok_bind]
          rcases ho with ho | ho | ho
          · rw [hdbg] at ho; simp at ho
          · by_cases h3 : c.usize + 64 / s - off + w ≤ 128
            · rw [loadPartMask_ok hn hd (by rw [ho, Nat.div_one]; rw [ho] at h3; exact h3)]; simp
            · rw [loadPartMask_panic (by omega)]; simp
          · rw [loadPartMask_panic (by omega)]; simp
      · rw [partitionMask_debug c hdbg (by omega)]; simp
  refine ⟨hmask, ?_⟩
  unfold mergePartitionedBlend
  cases hp : (partitionMask c off : Res (Vector (BitVec n) w)) <;> simp_all

end Faster
