import Verif.RawRef
import Verif.Lemmas.Merge
import Verif.Intrin.Tables
/-
C143: the slice references made by unsafe code are valid for their element type.
-/
namespace Faster
open Res

/-- Rust's validity of a slice reference into the object `o`: it is aligned for
its element type, and all its elements lie inside the object. -/
def SliceRef.Valid (o : Object) (r : SliceRef) : Prop :=
  r.align ∣ r.addr ∧ o.addr ≤ r.addr ∧ r.addr + r.len * r.elem ≤ o.addr + o.size

instance (o : Object) (r : SliceRef) : Decidable (r.Valid o) := by
  unfold SliceRef.Valid; infer_instance

/-- The reference of `partition_mask` is valid exactly for lanes of one byte,
wherever the table is. -/
theorem C143_mask_iff (a size align : Nat) (hs : 0 < size) (ha : align ≤ size) (ha0 : 0 < align) :
    (partMaskRef a size align).Valid (partMaskObject a) ↔ size = 1 := by
  simp only [SliceRef.Valid, partMaskRef, partMaskObject]
  constructor
  · rintro ⟨-, -, h⟩
    omega
  · rintro rfl
    have : align = 1 := by omega
    subst this
    exact ⟨Nat.one_dvd _, Nat.le_refl _, by omega⟩

/-- Also a slice shortened to the lanes which are there would be valid for wider
lanes only at some addresses. -/
theorem C143_mask_aligned_iff (a size align : Nat) :
    (⟨a, 128 / size, size, align⟩ : SliceRef).Valid (partMaskObject a) ↔ align ∣ a := by
  simp only [SliceRef.Valid, partMaskObject]
  have := Nat.div_mul_le_self 128 size
  constructor
  · exact fun h => h.1
  · exact fun h => ⟨h, Nat.le_refl _, by omega⟩

/-- Every vector type whose `merge_partitioned` is a blend with lanes wider than a
byte makes an invalid reference; the byte types make a valid one. -/
theorem C143_types : ∀ r ∈ mergeRows ++ mergeRowsUnknown, ∀ a align, 0 < align → align ≤ r.size →
    ((partMaskRef a r.size align).Valid (partMaskObject a) ↔ r.size = 1) := by
  intro r hr a align h0 h1
  exact C143_mask_iff a r.size align (by omega) h1 h0

/-- The load through the reference nevertheless stays inside the table for
offsets up to the width, and gives the mask. -/
theorem C143_mask_read {n w s : Nat} (c : Cfg) (hn : n = 8 * s) (hs : 0 < s) (hd : 64 % s = 0)
    (hws : w * s ≤ 64) (hc : 64 < c.usize) (a : Nat) {off : Nat} (ho : off ≤ w) :
    let r := partMaskRead a s w off
    (partMaskObject a).addr ≤ r.1 ∧ r.1 + r.2 ≤ (partMaskObject a).addr + (partMaskObject a).size ∧
    (partitionMask c off : Res (Vector (BitVec n) w)) =
      ok (Vector.ofFn fun i => if i.val < off then 0#n else BitVec.allOnes n) := by
  refine ⟨by simp [partMaskRead, partMaskObject], ?_, partitionMask_ok c hn hs hd hws hc ho⟩
  obtain ⟨_, _, h64⟩ := size_bound hs hd hws
  have := Nat.mul_le_mul_right s (Nat.sub_le (64 / s) off)
  simp only [partMaskRead, partMaskObject]
  omega

/-- The loads through it are aligned for the scalar type exactly if the table is. -/
theorem C143_mask_read_aligned {s w off a align : Nat} (h : align ∣ s) :
    align ∣ (partMaskRead a s w off).1 ↔ align ∣ a := by
  simp only [partMaskRead]
  exact ⟨fun x => (Nat.dvd_add_iff_left (Nat.dvd_mul_left_of_dvd h _)).2 x,
    fun x => Nat.dvd_add x (Nat.dvd_mul_left_of_dvd h _)⟩

section Chunks
variable {T α : Type} {w : Nat} [SIMDSized T] [SIMDIterator T α w]

theorem unrolled_nextLoop_le (c : Cfg) : ∀ (k i : Nat) (u : Unrolled T α w) (i' : Nat)
    (u' : Unrolled T α w), i ≤ 8 → Unrolled.nextLoop c k i u = ok (i', u') → i' ≤ 8 := by
  intro k
  induction k with
  | zero =>
    intro i u i' u' hi h
    simp only [Unrolled.nextLoop, Res.ok.injEq, Prod.mk.injEq] at h
    omega
  | succ k ih =>
    intro i u i' u' hi h
    rw [Unrolled.nextLoop] at h
    cases hn : SIMDIterable.next c u.iter with
    | ok p =>
      obtain ⟨r, it⟩ := p
      rw [hn, ok_bind] at h
      cases r with
      | some v =>
        by_cases h8 : i < 8
        · simp only [h8, dite_true] at h
          exact ih _ _ _ _ h8 h
        · simp [h8] at h
      | none =>
        simp only [Res.ok.injEq, Prod.mk.injEq] at h
        omega
    | panic => rw [hn] at h; simp at h
    | ub => rw [hn] at h; simp at h
    | hang => rw [hn] at h; simp at h

/-- Every chunk `Unrolled::next` returns is valid and not empty, whatever the
iterator, the position, the requested number and the state: it never has more
vectors than `scratch`, whose address is aligned for vectors. -/
theorem C143_chunk_partial (c : Cfg) (u u' : Unrolled T α w) (r : ScratchRef)
    (h : Unrolled.next c u = ok (some r, u')) (a size align : Nat) (ha : align ∣ a) :
    (scratchSlice a size align r).Valid (scratchObject a size) ∧ 0 < r.len ∧ r.len ≤ 8 := by
  have hl : 0 < r.len ∧ r.len ≤ 8 := by
    rw [Unrolled.next] at h
    cases hn : Unrolled.nextLoop c u.amt 0 u with
    | ok p =>
      obtain ⟨i, u1⟩ := p
      have := unrolled_nextLoop_le c _ _ _ _ _ (by omega) hn
      rw [hn, ok_bind] at h
      by_cases hi : i > 0
      · simp only [hi, if_true, Res.ok.injEq, Prod.mk.injEq, Option.some.injEq] at h
        rw [← h.1]
        exact ⟨hi, this⟩
      · simp [hi] at h
    | panic => rw [hn] at h; simp at h
    | ub => rw [hn] at h; simp at h
    | hang => rw [hn] at h; simp at h
  refine ⟨⟨ha, Nat.le_refl _, ?_⟩, hl⟩
  have := Nat.mul_le_mul_right size hl.2
  simp only [scratchSlice, scratchObject]
  omega

end Chunks

/-- The claim is false: the table at address 0, lanes of two bytes. -/
theorem C143_false : ¬ ∀ r ∈ mergeRows ++ mergeRowsUnknown, ∀ a,
    (partMaskRef a r.size r.size).Valid (partMaskObject a) := by
  intro h
  have h1 := h (mergeRows[3]'(by decide)) (List.mem_append_left _ (List.getElem_mem _)) 0
  exact absurd h1 (by decide)

example : (partMaskRef 5 1 1).Valid (partMaskObject 5) ∧
    ¬ (partMaskRef 8 8 8).Valid (partMaskObject 8) := by decide
example : partMaskRead 100 4 4 1 = (160, 16) := by decide
example : ∃ u u' : Unrolled (SIMDIter (Slice (BitVec 8) 1) (BitVec 8) 1) (BitVec 8) 1,
    Unrolled.next debug64 u = ok (some ⟨2⟩, u') := by
  refine ⟨⟨⟨0, ⟨[1, 2]⟩, #v[0]⟩, 3, Vector.replicate 8 #v[0]⟩,
    ⟨⟨2, ⟨[1, 2]⟩, #v[0]⟩, 3, #v[#v[1], #v[2], #v[0], #v[0], #v[0], #v[0], #v[0], #v[0]]⟩, ?_⟩
  decide +kernel

end Faster
