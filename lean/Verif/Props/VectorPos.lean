import Verif.StrideZip
import Verif.Props.StrideZipTrace

/-!
# Positions and lengths in vectors (C119)

`vector_pos` and `vector_len` have default bodies, `scalar_pos() / width()` and
`scalar_len() / width()`. `PackedStride` and `StrideZip` override the first,
`SIMDZipMap` the second. The overriding bodies are compared with the default ones.
-/

namespace Faster
open Res SIMDIterable

/-- The default bodies: the position in vectors is the position in scalars, and the
length in vectors the length in scalars, divided by the width. -/
def PosInVectors {I α : Type} {w : Nat} [SIMDSized I] [SIMDIterable I α w] (c : Cfg) (it : I) : Prop :=
  vectorPos c it = (do let p ← scalarPos c it; if w = 0 then panic else ok (p / w))

@[inherit_doc PosInVectors]
def LenInVectors {I α : Type} {w : Nat} [SIMDSized I] [SIMDIterable I α w] (c : Cfg) (it : I) : Prop :=
  vecLen c it = (do let n ← SIMDSized.scalarLen c it; if w = 0 then panic else ok (n / w))

section
variable {α β : Type} {w w' : Nat}

/-- **C119** for iterators over arrays. -/
theorem C119_iter {A : Type} [SIMDSized A] [SIMDArray A α w] (c : Cfg) (it : SIMDIter A α w) :
    PosInVectors c it ∧ LenInVectors c it := ⟨rfl, rfl⟩

/-- **C119** for mapped iterators. -/
theorem C119_map {I σ : Type} [SIMDSized I] [SIMDIterable I α w] [Packable β] (c : Cfg)
    (it : SIMDMap I σ α w β w') : PosInVectors c it ∧ LenInVectors c it := ⟨rfl, rfl⟩

/-- **C119** for adapters of scalar iterators. -/
theorem C119_adapter (c : Cfg) (it : SIMDAdapter α w) : PosInVectors c it ∧ LenInVectors c it :=
  ⟨rfl, rfl⟩

/-- **C119** for strided iterators, whose `vector_pos` is computed in another way. -/
theorem C119_stride {A : Type} [Packable α] [SIMDSized A] [SIMDArray A α w] (c : Cfg)
    (it : PackedStride A α w) (hw : 0 < w) (hs : 0 < it.stride) (hu : it.stride * w < c.usize) :
    PosInVectors c it ∧ LenInVectors c it := by
  refine ⟨?_, rfl⟩
  simp only [PosInVectors, vectorPos, scalarPos]
  cases usub c it.pos it.base with
  | ok n =>
    simp only [ok_bind]
    rw [umul_ok hu, ok_bind, udiv_ok (Nat.mul_pos hs hw), udiv_ok hs, ok_bind, if_neg (by omega),
      Nat.div_div_eq_div_mul]
  | panic => rfl
  | ub => rfl
  | hang => rfl

/-- **C119** for mapped zips: the position is in vectors of the output, the length in
vectors of the input. -/
theorem C119_zip_map_pos {Z σ γ : Type} [SIMDZippedIterator Z γ] [Packable β] (c : Cfg)
    (it : SIMDZipMap Z σ γ β w') : PosInVectors c it := rfl

/-- **C119** for zips: both are the default bodies. -/
theorem C119_zip {I R γ : Type} [SIMDSized I] [SIMDIterator I α w] [Packable α] [ZipRest R γ]
    (c : Cfg) (z : Zip I R) :
    SIMDZippedIterator.vectorPos c z =
      (do let p ← SIMDZippedIterator.scalarPos c z; if w = 0 then panic else ok (p / w)) ∧
    SIMDZippedIterator.vectorLen c z =
      (do let n ← SIMDZippedIterator.scalarLen c z; if w = 0 then panic else ok (n / w)) :=
  ⟨rfl, rfl⟩

/-- **C119, exactly, for the lengths of mapped zips**: a map from vectors of `w`
lanes to vectors of `w'` lanes has the length which it should have if and only if
both widths divide the number of scalars which the zip reports alike. -/
theorem C119_zip_map_len {I R σ γ : Type} [SIMDSized I] [SIMDIterator I α w] [Packable α]
    [ZipRest R γ] [Packable β] (c : Cfg) (it : SIMDZipMap (Zip I R) σ (Vector α w × γ) β w')
    (n : Nat) (hn : SIMDZippedIterator.scalarLen c it.iter = ok n) (hw : 0 < w) (hw' : 0 < w') :
    LenInVectors c it ↔ n / w = n / w' := by
  have h1 : vecLen c it = ok (n / w) := by
    have : vecLen c it = SIMDZippedIterator.scalarLen c it.iter >>= fun m => udiv m w := rfl
    rw [this, hn, ok_bind, udiv_ok hw]
  have h2 : SIMDSized.scalarLen c it = ok n := hn
  rw [LenInVectors, h1, h2, ok_bind, if_neg (by omega), ok.injEq]

/-- The position in vectors which `stride_zip` reports. -/
theorem C119_stride_zip_pos [Packable α] (c : Cfg) (l : List α) (d : Vector α w) (b : Nat)
    (pk : Option (Vector α w)) (p : Nat) (hw : 0 < w) (hb : b ≤ p) :
    SIMDZippedIterator.scalarPos c (pairsAt l d b pk p) = ok ((p - b) / 2) ∧
    SIMDZippedIterator.vectorPos c (pairsAt l d b pk p) = ok ((p - b + b % w) / (2 * w)) := by
  constructor
  · simp only [SIMDZippedIterator.scalarPos, SIMDIterable.scalarPos, ok_bind, usub_ok hb]
  · simp only [SIMDZippedIterator.vectorPos, SIMDIterable.vectorPos, udiv_ok hw, ok_bind,
      usub_ok (Nat.div_le_div_right hb)]
    have e : p = (p - b + b % w) + w * (b / w) := by
      have := Nat.mod_add_div b w
      omega
    have h : p / w - b / w = (p - b + b % w) / w := by
      conv => lhs; lhs; rw [e]
      rw [Nat.add_mul_div_left _ _ hw, Nat.add_sub_cancel]
    rw [h, Nat.div_div_eq_div_mul, Nat.mul_comm]

/-- **C119, exactly, for `stride_zip`**: a `stride_zip` made at position `b` of a
slice iterator, whose inner iterator is now at `p`, reports its position in
vectors correctly if and only if the part of a vector before `b` and the part of a
pair of vectors between `b` and `p` together are less than two vectors. -/
theorem C119_stride_zip_exact [Packable α] (c : Cfg) (l : List α) (d : Vector α w) (b : Nat)
    (pk : Option (Vector α w)) (p : Nat) (hw : 0 < w) (hb : b ≤ p) :
    (∃ n, SIMDZippedIterator.scalarPos c (pairsAt l d b pk p) = ok n ∧
      SIMDZippedIterator.vectorPos c (pairsAt l d b pk p) = ok (n / w)) ↔
    (p - b) % (2 * w) + b % w < 2 * w := by
  obtain ⟨h1, h2⟩ := C119_stride_zip_pos c l d b pk p hw hb
  have key : (p - b + b % w) / (2 * w) = (p - b) / 2 / w ↔ (p - b) % (2 * w) + b % w < 2 * w := by
    rw [Nat.div_div_eq_div_mul]
    have hr : b % w < w := Nat.mod_lt _ hw
    have hm : (p - b) % (2 * w) < 2 * w := Nat.mod_lt _ (by omega)
    have e : p - b + b % w = ((p - b) % (2 * w) + b % w) + 2 * w * ((p - b) / (2 * w)) := by
      have := Nat.mod_add_div (p - b) (2 * w)
      omega
    have h : (p - b + b % w) / (2 * w) = ((p - b) % (2 * w) + b % w) / (2 * w) + (p - b) / (2 * w) := by
      conv => lhs; rw [e]
      rw [Nat.add_mul_div_left _ _ (by omega)]
    constructor
    · intro h3
      have : ((p - b) % (2 * w) + b % w) / (2 * w) = 0 := by omega
      exact (Nat.div_eq_zero_iff.mp this).resolve_left (by omega)
    · intro h3
      rw [h, Nat.div_eq_of_lt h3, Nat.zero_add]
  rw [← key]
  constructor
  · rintro ⟨n, e1, e2⟩
    rw [h1, ok.injEq] at e1
    rw [h2, ok.injEq, ← e1] at e2
    exact e2
  · intro h3
    exact ⟨_, h1, by rw [h2, h3]⟩

/-- **C119** for a `stride_zip` which is made at a multiple of the width, in
particular at the start. Missing: other starts (`C119_stride_zip_exact`). -/
theorem C119_stride_zip_partial [Packable α] (c : Cfg) (l : List α) (d : Vector α w) (b : Nat)
    (pk : Option (Vector α w)) (p : Nat) (hw : 0 < w) (hb : b ≤ p) (hm : b % w = 0) :
    ∃ n, SIMDZippedIterator.scalarPos c (pairsAt l d b pk p) = ok n ∧
      SIMDZippedIterator.vectorPos c (pairsAt l d b pk p) = ok (n / w) :=
  (C119_stride_zip_exact c l d b pk p hw hb).mpr (by
    rw [hm]; exact Nat.mod_lt _ (by omega))

end

/-- The positions which `stride_zip` reports when it is made at position 3 of an
iterator over vectors of four lanes, and moved by three pairs. -/
def unalignedPos (l : List (BitVec 32)) : Res (Nat × Nat) := do
  let it ← advance release64 (simdIter (w := 4) l #v[0, 0, 0, 0]) 3
  let z ← strideZip release64 it
  let z ← SIMDZippedIterator.advance release64 z 3
  ok (← SIMDZippedIterator.scalarPos release64 z, ← SIMDZippedIterator.vectorPos release64 z)

/-- **C119 is false**: after three pairs the position in vectors of four pairs is
one, whatever the slice. -/
theorem C119_false (l : List (BitVec 32)) : unalignedPos l = ok (3, 1) := by
  simp [unalignedPos, strideZip, simdIter, SIMDIterable.advance, SIMDIter.advance, SIMDIterable.scalarPos, SIMDIterable.vectorPos,
    SIMDZippedIterator.advance, SIMDZippedIterator.scalarPos, SIMDZippedIterator.vectorPos, ok_bind,
    uadd, umul, usub, udiv, release64]

example : unalignedPos [] = ok (3, 1) ∧ (3 - 3) % (2 * 4) + 3 % 4 < 2 * 4 ∧
    ¬ ((9 - 3) % (2 * 4) + 3 % 4 < 2 * 4) := by decide +kernel

/-- **C119 is false** for the length of a zip which is mapped to vectors of another
width: a zip of two slices of sixteen bytes in vectors of four, mapped to vectors of
two lanes, has `scalar_len` four and `vector_len` one. -/
theorem C119_false_len : ∃ it : SIMDZipMap (Zip (SIMDIter (Slice (BitVec 8) 4) (BitVec 8) 4)
      (SIMDIter (Slice (BitVec 8) 4) (BitVec 8) 4 × Unit)) Unit
      (Vector (BitVec 8) 4 × Vector (BitVec 8) 4 × Unit) (BitVec 16) 2,
    ¬ LenInVectors release64 it :=
  ⟨⟨⟨simdIter (List.replicate 16 0) #v[0, 0, 0, 0], (simdIter (List.replicate 16 0) #v[0, 0, 0, 0], ())⟩, (),
    fun _ _ => ok (#v[0, 0], ())⟩, by
    rw [C119_zip_map_len release64 _ 4 (by decide +kernel) (by decide) (by decide)]
    decide⟩

end Faster
