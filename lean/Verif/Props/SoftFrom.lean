import Verif.Props.Soft
import Verif.Props.Transmute
/-
C95: constructors, unchecked loads and stores, and conversions of the vectors for
targets without SIMD (src/arch/unknown/vecs.rs).
-/
namespace Faster
open Res

/-- The conversion is a `transmute`, so the sizes of the types must be equal. -/
theorem C95_sizes : ∀ r ∈ softFroms, ∀ s ∈ r.2.2, s.2 = r.2.1 := by decide +kernel

/-- The names and sizes in bytes of the integer vector types. -/
def softInts : List (String × Nat) :=
  (softRows.filter fun r => !r.el.startsWith "f").map fun r => (r.vec, r.elSize * r.lanes)

/-- **C95.** There is a conversion between any two different integer vector types
of one size, and only between those, and only one. -/
theorem C95_pairs : ∀ a ∈ softInts, ∀ b ∈ softInts,
    (softFroms.flatMap fun r => r.2.2.map fun s => (s.1, r.1)).count (a.1, b.1) =
      if a.2 = b.2 ∧ a.1 ≠ b.1 then 1 else 0 := by
  decide +kernel

/-- `u` can be made from `v` by conversions through any types of one size. -/
inductive Converts {m w : Nat} (v : Vector (BitVec m) w) :
    {n w' : Nat} → Vector (BitVec n) w' → Prop where
  | refl : Converts v v
  | step {n w' n' w'' : Nat} {u : Vector (BitVec n) w'} :
    Converts v u → w' * n = w'' * n' →
    Converts v (Soft.convert u : Vector (BitVec n') w'')

/-- **C95**: however a vector is converted, the result only depends on the type
one ends in, and on no bit being changed. -/
theorem C95_path {m w n w' : Nat} {v : Vector (BitVec m) w} {u : Vector (BitVec n) w'}
    (h : Converts v u) : w * m = w' * n ∧ u = reinterpret v ∧ ∀ p, p < w * m → bit u p = bit v p := by
  induction h with
  | refl => exact ⟨rfl, (reinterpret_self v).symm, fun _ _ => rfl⟩
  | @step n w' n' w'' u h e ih =>
    obtain ⟨h1, h2, -⟩ := ih
    have hs : w * m = w'' * n' := h1.trans e
    have hr : (Soft.convert u : Vector (BitVec n') w'') = reinterpret v := by
      rw [Soft.convert, h2]
      exact C52_compose v h1 hs
    refine ⟨hs, hr, fun p hp => ?_⟩
    rw [hr]
    exact bit_reinterpret v (by omega)

/-- **C95**: in particular converting back gives the vector one started with. -/
theorem C95_back {m w : Nat} {v u : Vector (BitVec m) w} (h : Converts v u) : u = v := by
  rw [(C95_path h).2.1, reinterpret_self]

/-- **C95**, `new` and `len`: the arguments become the lanes in order, their number
is the number in the name of the type, and is what `len()` returns. -/
theorem C95_new {α : Type} (row : SoftRow) (h : row ∈ softRows) (arg : Nat → α) :
    Soft.new row arg = (List.range (Soft.len row)).map arg ∧ Soft.len row = row.lanes ∧
    (Soft.new row arg).length = row.lanes := by
  have key : ∀ r ∈ softRows, r.params = List.range r.width ∧ r.width = r.lanes := by decide +kernel
  obtain ⟨h1, h2⟩ := key row h
  simp [Soft.new, Soft.len, h1, h2]

/-- **C95**, `splat`: all lanes are the argument. -/
theorem C95_splat {α : Type} {w : Nat} (x : α) (i : Nat) (hi : i < w) :
    (Soft.splat x : Vector α w)[i] = x := by
  simp [Soft.splat]

/-- **C95**, the unchecked accesses without an offset: within bounds they do what
the checked ones do; they fail exactly if the slice is shorter than the vector. -/
theorem C95_unchecked {α : Type} {w : Nat} (v : Vector α w) (slice : List α) :
    (w ≤ slice.length →
      (Soft.loadUnchecked0 slice : Res (Vector α w)) = Packed.load slice 0 ∧
      Soft.storeUnchecked0 v slice = Packed.store v slice 0) ∧
    (slice.length < w → (Soft.loadUnchecked0 slice : Res (Vector α w)) = ub ∧
      Soft.storeUnchecked0 v slice = ub) := by
  refine ⟨fun h => ⟨?_, ?_⟩, fun h => ⟨?_, ?_⟩⟩
  · simp [Soft.loadUnchecked0, Soft.copyFrom, Packed.load, Packed.fromSlice,
      Packed.fromSliceUnchecked, assert, sliceFrom, h]
  · simp [Soft.storeUnchecked0, Packed.store, assert, sliceFrom, h]
  · have : ¬ w ≤ slice.length := by omega
    simp [Soft.loadUnchecked0, Soft.copyFrom, this]
  · have : ¬ w ≤ slice.length := by omega
    simp [Soft.storeUnchecked0, this]

/-- **C95**: what was stored is what is loaded. -/
theorem C95_store_load {α : Type} {w : Nat} (v : Vector α w) (slice s : List α)
    (h : Soft.storeUnchecked0 v slice = ok s) : Soft.loadUnchecked0 s = ok v := by
  unfold Soft.storeUnchecked0 at h
  split at h
  · cases h
    have : w ≤ (splice slice 0 v.toList).length := by simp [splice]
    rw [Soft.loadUnchecked0, Soft.copyFrom, dif_pos this]
    congr 1
    apply Vector.ext
    intro i hi
    simp [splice]
  · cases h

example : softInts.length = 24 ∧ softFroms.length = 24 := by decide +kernel
example : (Soft.convert #v[0x0201#16, 0x0403#16] : Vector (BitVec 32) 1) = #v[0x04030201#32] := by
  decide +kernel
example : Converts #v[0x0201#16, 0x0403#16] #v[0x0201#16, 0x0403#16] := by
  have := ((Converts.refl (v := #v[0x0201#16, 0x0403#16])).step (n' := 32) (w'' := 1) rfl).step
    (n' := 16) (w'' := 2) rfl
  rwa [show (Soft.convert (Soft.convert #v[0x0201#16, 0x0403#16] : Vector (BitVec 32) 1) :
    Vector (BitVec 16) 2) = #v[0x0201#16, 0x0403#16] by decide +kernel] at this
example : Soft.storeUnchecked0 #v[7, 8] [1, 2, 3] = ok [7, 8, 3] := by decide +kernel

end Faster
