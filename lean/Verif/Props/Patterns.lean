import Verif.Intrin.Patterns
import Verif.Lemmas.Merge
/-
The generated pattern constructors: C114.
-/
namespace Faster
open Res

variable {α : Type} {w : Nat}

/-- What a word stands for. -/
def Word.value (hi lo : α) : Word → α
  | .hi => hi
  | .lo => lo

theorem genNew_ok (l : List Word) (hi lo : α) (v : Vector α w)
    (h : l.map (Word.value hi lo) = v.toList) : genNew l hi lo = ok v := by
  unfold genNew
  apply newLanes_eq
  rw [← h, List.map_map]
  apply List.map_congr_left
  intro a _
  cases a <;> rfl

theorem genArms_lookup {l off : Nat} (h : off ≤ l) : (genArms l).lookup off = some (genArm l off) := by
  have key : ∀ (is : List Nat), off ∈ is →
      (is.map fun i => (i, genArm l i)).lookup off = some (genArm l off) := by
    intro is
    induction is with
    | nil => simp
    | cons i is ih =>
      intro hm
      by_cases hi : off = i
      · subst hi; simp
      · have : (off == i) = false := by simpa using hi
        simp only [List.map_cons, List.lookup_cons, this]
        exact ih (by simpa [hi] using hm)
  exact key _ (by simp; omega)

/-- **C114**: for vectors of any even number of lanes the generated `halfs` and `interleave`, and for
any number of lanes the generated `partition`, build the documented vectors; larger offsets
panic. -/
theorem C114_generator (hi lo : α) :
    (w % 2 = 0 → (genNew (genHalfs w) hi lo : Res (Vector α w)) = ok (halfs hi lo) ∧
      (genNew (genInterleave w) hi lo : Res (Vector α w)) = ok (interleave hi lo)) ∧
    (∀ off ≤ w, (genPartition hi lo off : Res (Vector α w)) =
      ok (Vector.ofFn fun i => if i.val < off then hi else lo)) ∧
    ∀ off, w < off → (genPartition hi lo off : Res (Vector α w)) = panic := by
  refine ⟨fun hw => ⟨genNew_ok _ _ _ _ ?_, genNew_ok _ _ _ _ ?_⟩, fun off h => ?_, fun off h => ?_⟩
  · apply List.ext_getElem
    · simp [genHalfs]; omega
    · intro i h1 h2
      by_cases hi' : i < w / 2
      · simp [genHalfs, halfs, hi', Word.value]
      · simp [genHalfs, halfs, hi', List.getElem_append, Word.value]
  · obtain ⟨k, rfl⟩ : ∃ k, w = 2 * k := ⟨w / 2, by omega⟩
    have e : genInterleave (2 * k) = (List.range k).flatMap fun _ => [Word.hi, Word.lo] := by
      unfold genInterleave
      rw [show 2 * k / 2 = k by omega, List.flatMap_def]
      congr 1
      apply List.ext_getElem <;> simp
    rw [e, flatMap_pair]
    apply List.ext_getElem
    · simp
    · intro i h1 h2
      by_cases hi' : i % 2 = 0 <;> simp [interleave, hi', Word.value]
  · unfold genPartition
    simp only [h, genArms_lookup h, decide_true, assert_true, ok_bind]
    apply genNew_ok
    apply List.ext_getElem
    · simp [genArm]; omega
    · intro i h1 h2
      by_cases hi' : i < off <;> simp [genArm, hi', List.getElem_append, Word.value]
  · unfold genPartition
    have : ¬ off ≤ w := by omega
    simp [this]

/-- The words of the arguments in the sources. -/
def Args.words (a : Args) : List Word := a.list .hi .lo

/-- **C114**: the sources contain what the script writes, for every vector type. -/
theorem C114_sources : ∀ r ∈ patternRows ++ patternRowsUnknown,
    r.halfs.words = genHalfs r.width ∧ r.interleave.words = genInterleave r.width ∧
    r.arms.map (fun a => (a.1, a.2.words)) = genArms r.width ∧
    r.ones = genConst 15 (8 * r.size) ∧ r.zeroes = genConst 0 (8 * r.size) ∧
    r.width % 2 = 0 ∧ r.ones = (2 ^ (8 * r.size) - 1, 8 * r.size) ∧ r.zeroes = (0, 8 * r.size) := by
  decide +kernel

example : patternRows.length = 30 ∧ patternRowsUnknown.length = 10 := by decide +kernel

theorem args_new (a : Args) (hi lo : α) : (a.new hi lo : Res (Vector α w)) = genNew a.words hi lo := by
  unfold Args.new genNew Args.words Args.list
  congr 1
  rw [List.map_map, List.map_map]
  apply List.map_congr_left
  intro i _
  simp only [Function.comp_apply]
  split <;> rfl

theorem lookup_map {β γ : Type} (f : β → γ) (k : Nat) (l : List (Nat × β)) :
    (l.map fun a => (a.1, f a.2)).lookup k = (l.lookup k).map f := by
  induction l with
  | nil => rfl
  | cons a l ih =>
    obtain ⟨i, b⟩ := a
    simp only [List.map_cons, List.lookup_cons]
    cases k == i
    · exact ih
    · rfl

/-- **C114**: the constructors of every type build the documented vectors: `halfs` has `hi` in the
first half and `lo` in the second, `interleave` has `hi` at even and `lo` at odd places,
`partition` has `hi` in the first `off` lanes, and panics for offsets above the width, `ones` has
all bits set and `zeroes` none. -/
theorem C114_rows (r : PatternRow) (hr : r ∈ patternRows ++ patternRowsUnknown) (hi lo : α) :
    r.halfsOf hi lo = ok (Vector.ofFn fun i => if i.val < r.width / 2 then hi else lo) ∧
    r.interleaveOf hi lo = ok (Vector.ofFn fun i => if i.val % 2 = 0 then hi else lo) ∧
    (∀ off ≤ r.width, r.partitionOf hi lo off = ok (Vector.ofFn fun i => if i.val < off then hi else lo)) ∧
    (∀ off, r.width < off → r.partitionOf hi lo off = panic) ∧
    r.constOf r.ones = ok (Packed.splat (BitVec.allOnes _)) ∧
    r.constOf r.zeroes = ok (Packed.splat 0#_) := by
  obtain ⟨h1, h2, h3, -, -, hw, h4, h5⟩ := C114_sources r hr
  obtain ⟨g1, g2, g3⟩ := C114_generator (w := r.width) hi lo
  have hp : ∀ off, r.partitionOf hi lo off = genPartition hi lo off := by
    intro off
    unfold PatternRow.partitionOf genPartition
    rw [← h3, lookup_map Args.words]
    cases r.arms.lookup off with
    | none => rfl
    | some a => simp only [Option.map_some, args_new]
  refine ⟨?_, ?_, fun off h => ?_, fun off h => ?_, ?_, ?_⟩
  · unfold PatternRow.halfsOf; rw [args_new, h1, (g1 hw).1]; rfl
  · unfold PatternRow.interleaveOf; rw [args_new, h2, (g1 hw).2]; rfl
  · rw [hp, g2 off h]
  · rw [hp, g3 off h]
  · unfold PatternRow.constOf
    rw [h4, if_pos rfl]
    congr 2
    apply BitVec.eq_of_toNat_eq
    simp
  · unfold PatternRow.constOf
    rw [h5, if_pos rfl]

/-- **C114**: the constructors of the sources are those used in the other theorems. -/
theorem C114_model (r : PatternRow) (hr : r ∈ patternRows ++ patternRowsUnknown) (hi lo : α) :
    r.halfsOf hi lo = ok (halfs hi lo) ∧ r.interleaveOf hi lo = ok (interleave hi lo) ∧
    (∀ off, r.partitionOf hi lo off = partitionTable hi lo off) ∧
    r.constOf r.ones = ok ones ∧ r.constOf r.zeroes = ok zeroes := by
  obtain ⟨h1, h2, h3, h4, h5, h6⟩ := C114_rows r hr hi lo
  refine ⟨h1, h2, fun off => ?_, h5, h6⟩
  by_cases h : off ≤ r.width
  · rw [h3 off h]; simp [partitionTable, h]
  · rw [h4 off (by omega)]; simp [partitionTable, h]

/-- **C114**: the table of masks on both architectures, and the blend instructions of the x86 types
in the order of the file. -/
theorem C114_blends :
    partMaskBytes = partMask.toList.map BitVec.toNat ∧ partMaskBytesUnknown = partMaskBytes ∧
    (patternRows.map fun r => genBlend (8 * r.size * r.width)) =
      (gateRows.filter fun g => g.file = "arch/x86/vec_patterns.rs").map fun g => some (g.gate, g.mm) := by
  decide +kernel

/-- Every vector type has its patterns once. -/
example : (patternRows.map (·.vec)).Nodup ∧ (patternRowsUnknown.map (·.vec)).Nodup := by decide +kernel

/-- Non-vacuity: `u32x4::partition(7, 9, 3)`. -/
example : ∃ r ∈ patternRows, ∃ h : r.width = 4, r.vec = "u32x4" ∧
    r.partitionOf 7 9 3 = ok (h ▸ #v[7, 7, 7, 9]) := by
  refine ⟨(patternRows.find? (·.vec = "u32x4")).get (by decide +kernel), by decide +kernel,
    by decide +kernel, by decide +kernel, by decide +kernel⟩

end Faster
