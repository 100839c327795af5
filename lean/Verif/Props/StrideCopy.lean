import Verif.Props.FillAllAny
import Verif.Props.SizeChange
import Verif.Props.NestedStride
import Verif.Props.BitCount
import Verif.Props.SliceSum
/-
C164: a pass over an iterator which walks over a list in any way, as strided iterators do, is a pass over a
slice which holds a copy of the list. What is proved of passes over slices so holds of strides.
-/
namespace Faster
open Res SIMDSized SIMDIterable SIMDIterator

section
variable {I α β σ A : Type} {w w' : Nat} [SIMDSized I] [SIMDIterator I α w] {c : Cfg} {S : Nat → I}
  {l : List α} {d : Vector α w} {more : Nat → Prop}

/-- **C164**, `simd_reduce`. -/
theorem C164_reduce (h : Driver c S l d more) (hw : 0 < w) (hu : l.length + w < c.usize) (fuel : Nat)
    (start : A) (st : σ) (f : σ → A → Vector α w → Res (A × σ)) (hfuel : l.length / w < fuel) :
    (do
      let (_, acc) ← simdReduce c fuel (S 0) start st f
      ok acc) = (do
      let (_, acc) ← simdReduce c fuel (simdIter l d) start st f
      ok acc) := by
  have h' := simdIter_driver (represents_slice c l) d hw hu
  have e := h'.reduce fuel start st f hw hfuel
  rw [h.reduce fuel start st f hw hfuel]
  simp only [simdIter] at e ⊢
  rw [e]
  simp only [bind_assoc, ok_bind]

/-- **C164**, `simd_do_each`. -/
theorem C164_do_each (h : Driver c S l d more) (hw : 0 < w) (hu : l.length + w < c.usize) (fuel : Nat)
    (st : σ) (f : FnMut σ (Vector α w) Unit) (hfuel : l.length / w < fuel) :
    (do
      let (_, st') ← simdDoEach c fuel (S 0) st f
      ok st') = (do
      let (_, st') ← simdDoEach c fuel (simdIter l d) st f
      ok st') := by
  have h' := simdIter_driver (represents_slice c l) d hw hu
  have e := h'.do_each fuel st f hw hfuel
  rw [h.do_each fuel st f hw hfuel]
  simp only [simdIter] at e ⊢
  rw [e]
  simp only [bind_assoc, ok_bind]

variable [Packable α] [Packable β]

/-- **C164**, `simd_map` and `scalar_collect`. -/
theorem C164_collect (h : Driver c S l d more) (hw : 0 < w) (hw' : 0 < w') (hu : l.length + w < c.usize)
    (fuel : Nat) (st : σ) (f : FnMut σ (Vector α w) (Vector β w')) (hs : 0 < Packable.size β)
    (hsize : w * Packable.size α = w' * Packable.size β) (hlen' : (l.length / w + 1) * w' < c.usize)
    (hvec : w * Packable.size α < c.usize) (hfuel : l.length / w < fuel) :
    (do
      let (it, out) ← scalarCollect c fuel (simdMap (S 0) st f)
      ok (it.st, out)) = (do
      let (it, out) ← scalarCollect c fuel (simdMap (simdIter l d) st f)
      ok (it.st, out)) := by
  have h' := simdIter_driver (represents_slice c l) d hw hu
  have e := h'.collect_map fuel st f hw hw' hs hsize hlen' hvec hfuel
  rw [h.collect_map fuel st f hw hw' hs hsize hlen' hvec hfuel]
  simp only [simdIter] at e ⊢
  rw [e]
  simp only [bind_assoc, ok_bind]

/-- **C164**, `simd_map` and `scalar_fill`, any buffer with room for the results. -/
theorem C164_fill (h : Driver c S l d more) (hw : 0 < w) (hw' : 0 < w') (hu : l.length + w < c.usize)
    (fuel : Nat) (st : σ) (f : FnMut σ (Vector α w) (Vector β w')) (buf : List β) (hs : 0 < Packable.size β)
    (hn : (w - l.length % w) % w * Packable.size α / Packable.size β ≤ w')
    (hbuf : (l.length + (w - 1)) / w * w' ≤
      buf.length + (w - l.length % w) % w * Packable.size α / Packable.size β)
    (hlen' : (l.length / w + 1) * w' < c.usize) (hvec : w * Packable.size α < c.usize)
    (hfuel : l.length / w < fuel) :
    (do
      let (it, out) ← scalarFill c fuel (simdMap (S 0) st f) buf
      ok (it.st, out)) = (do
      let (it, out) ← scalarFill c fuel (simdMap (simdIter l d) st f) buf
      ok (it.st, out)) := by
  have h' := simdIter_driver (represents_slice c l) d hw hu
  have e := C130_fill h' fuel st f buf hw hw' hs hn hbuf hlen' hvec hfuel
  rw [C130_fill h fuel st f buf hw hw' hs hn hbuf hlen' hvec hfuel]
  simp only [simdIter] at e ⊢
  rw [e]
  simp only [bind_assoc, ok_bind]

/-- **C164**, `scalar_collect_all` of a map: the same result, or the same failure. -/
theorem C164_collect_all (h : Driver c S l d more) (hw : 0 < w) (hw' : 0 < w') (hu : l.length + w < c.usize)
    (fuel : Nat) (st : σ) (f : FnMut σ (Vector α w) (Vector β w')) (hs : 0 < Packable.size β)
    (hlen' : (l.length / w + 1) * w' < c.usize) (hvec : w * Packable.size α < c.usize)
    (hfuel : l.length / w < fuel) :
    (do
      let (it, out) ← scalarCollectAll c fuel (simdMap (S 0) st f)
      ok (it.st, out)) = (do
      let (it, out) ← scalarCollectAll c fuel (simdMap (simdIter l d) st f)
      ok (it.st, out)) := by
  have h' := simdIter_driver (represents_slice c l) d hw hu
  have e := C31_driver h' fuel st f 0 (by omega) (.inl rfl) hw hw' hs hvec hlen' hfuel
  have e' := C31_driver h fuel st f 0 (by omega) (.inl rfl) hw hw' hs hvec hlen' hfuel
  unfold simdMap
  rw [e']
  simp only [simdIter] at e ⊢
  rw [e]
  split <;> simp only [bind_assoc, ok_bind]
  · congr; funext q; unfold badAccess; split <;> rfl

/-- **C164**, `scalar_fill_all` of a map, any buffer: the same result, or the same failure. -/
theorem C164_fill_all (h : Driver c S l d more) (hw : 0 < w) (hw' : 0 < w') (hu : l.length + w < c.usize)
    (fuel : Nat) (st : σ) (f : FnMut σ (Vector α w) (Vector β w')) (buf : List β) (hs : 0 < Packable.size β)
    (hlen' : buf.length + w' < c.usize) (hvec : w * Packable.size α < c.usize)
    (hfuel : l.length / w < fuel) :
    (do
      let (it, out) ← scalarFillAll c fuel (simdMap (S 0) st f) buf
      ok (it.st, out)) = (do
      let (it, out) ← scalarFillAll c fuel (simdMap (simdIter l d) st f) buf
      ok (it.st, out)) := by
  have h' := simdIter_driver (represents_slice c l) d hw hu
  have e := C32_driver h' fuel st f buf 0 (by omega) (.inl rfl) hw hw' hs hvec hlen' hfuel
  have e' := C32_driver h fuel st f buf 0 (by omega) (.inl rfl) hw hw' hs hvec hlen' hfuel
  unfold simdMap
  rw [e']
  simp only [simdIter] at e ⊢
  rw [e]
  split <;> simp only [bind_assoc, ok_bind]
  · congr; funext q; unfold badAccess; split <;> rfl

end

section
variable {α A σ : Type} {w : Nat} [Packable α] {c : Cfg}

/-- **C164** for strided iterators over slices: the fold over the slice of the elements `k`, `k + s`, … -/
theorem C164_stride (xs : List α) {s k : Nat} (hk : k < s) (d : Vector α w) (hw : 0 < w)
    (hu : xs.length + s * (w + 1) < c.usize) (fuel : Nat) (start : A) (st : σ)
    (f : σ → A → Vector α w → Res (A × σ)) (hfuel : xs.length / s / w < fuel) :
    (do
      let (_, acc) ← simdReduce c fuel (strideAt (⟨xs⟩ : Slice α w) s k d) start st f
      ok acc) = (do
      let (_, acc) ← simdReduce c fuel (simdIter (strided s k xs hk) d) start st f
      ok acc) := by
  obtain ⟨S, more, hd, h0, -⟩ := strideAt_driver c xs hk d hw hu
  have hl : (strided s k xs hk).length = xs.length / s := strided_length ..
  have h1 := Nat.div_le_self xs.length s
  have h2 : w + 1 ≤ s * (w + 1) := Nat.le_mul_of_pos_left _ (by omega)
  rw [← h0]
  exact C164_reduce hd hw (by omega) fuel start st f (by rwa [hl])

end

section
variable {n w : Nat} {c : Cfg} {k : Kind}

/-- Sums of strides are sums of slices, so all of C162 holds for them. -/
theorem C164_stride_sum (F : Vector (BitVec n) w → Res (BitVec n)) (xs : List (BitVec n)) {s j : Nat} (hj : j < s)
    (hw : 0 < w) (hu : xs.length + s * (w + 1) < c.usize) (fuel : Nat) (hfuel : xs.length / s / w < fuel) :
    (do
      let (_, acc, _) ← simdReduce c fuel (strideAt (⟨xs⟩ : Slice (BitVec n) w) s j (Packed.splat 0 : Vector (BitVec n) w))
        (Packed.splat 0) () fun _ (acc : Vector (BitVec n) w) v => ok (acc.zipWith (· + ·) v, ())
      F acc) = sliceSum c fuel F (strided s j xs hj) := by
  have h := C164_stride (c := c) xs hj (Packed.splat 0 : Vector (BitVec n) w) hw hu fuel (Packed.splat 0) ()
    (fun _ (acc : Vector (BitVec n) w) v => ok (acc.zipWith (· + ·) v, ())) hfuel
  have h' := congrArg (fun r => r >>= fun q => F q.1) h
  simp only [bind_assoc, ok_bind] at h'
  exact h'

end

/-- Set bits of the elements 1, 3 and 5 of seven, by stride and by slice. -/
example : (do
      let (_, acc, _) ← simdReduce debug64 9 (strideAt (⟨[1#8, 3, 7, 15, 31, 63, 127]⟩ : Slice (BitVec 8) 2) 2 1
        (Packed.splat 0 : Vector (BitVec 8) 2)) 0 () fun _ acc v => ok (acc + vecOnes v, ())
      ok acc) = ok 12 ∧ strided 2 1 [1#8, 3, 7, 15, 31, 63, 127] (by decide) = [3, 15, 63] := by
  constructor <;> decide +kernel

/-- Buffers without room are not alike: a stride hands its last complete vector out by `end`, whose results are
written with a check, a slice by `next`, whose results are not. -/
theorem C164_short_buffer :
    (do
      let (_, out) ← scalarFill release64 9 (simdMap (strideAt (⟨[1#8, 2#8]⟩ : Slice (BitVec 8) 2) 1 0
        (Packed.splat 0 : Vector (BitVec 8) 2)) () fun _ (v : Vector (BitVec 8) 2) => ok (v, ())) [9#8]
      ok out) = Res.panic ∧
    (do
      let (_, out) ← scalarFill release64 9 (simdMap (simdIter (w := 2) [1#8, 2#8] (Packed.splat 0)) ()
        fun _ (v : Vector (BitVec 8) 2) => ok (v, ())) [9#8]
      ok out) = Res.ub := by
  constructor <;> decide +kernel

end Faster
