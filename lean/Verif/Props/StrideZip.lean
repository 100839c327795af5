import Verif.Lemmas.StrideZip
import Verif.Props.Zip
/-
C29 and the `stride_zip` parts of C33 and C34.

`pairsOf l` are the complete consecutive pairs of `l`; `pairTail d l` is what
`end` returns after the full windows of pairs.
-/
namespace Faster
open Res SIMDSized SIMDIterable SIMDIterator

variable {α : Type} [Packable α] {w : Nat}

omit [Packable α] in
theorem pairsOf_length (l : List α) : (pairsOf l).length = l.length / 2 := by simp [pairsOf]

omit [Packable α] in
theorem strideZip_fresh (c : Cfg) (l : List α) (d : Vector α w) :
    strideZip c (simdIter l d) = ok ⟨0, none, simdIter l d⟩ := rfl

omit [Packable α] in
theorem pairTail_lt (hw : 0 < w) {d : Vector α w} {l : List α} {p : Vector α w × Vector α w}
    {n : Nat} (h : pairTail d l = some (p, n)) : n ≤ w := by
  have hm := Nat.mod_lt l.length (show 0 < 2 * w by omega)
  unfold pairTail at h
  simp only [] at h
  repeat' split at h
  all_goals simp only [Option.some.injEq, Prod.mk.injEq, reduceCtorEq] at h
  all_goals omega

/-- The calls of a complete pass: the full windows of pairs, split into a vector
of first and a vector of second components, then the tail. -/
def pairCalls (d : Vector α w) (l : List α) : List (Vector α w × Vector α w) :=
  zwithTail ((fullWindows w (pairsOf l)).map unzipV) (pairTail d l)

/-- **C29**, `simd_do_each`: exactly the calls made. -/
theorem C29_stride_zip_calls {σ : Type} (c : Cfg) (fuel : Nat) (l : List α) (d : Vector α w)
    (st : σ) (f : FnMut σ (Vector α w × Vector α w) Unit) (hw : 0 < w)
    (hu : l.length + 2 * w < c.usize) (hfuel : l.length / 2 / w < fuel) :
    (do
      let z ← strideZip c (simdIter l d)
      let (_, st') ← zsimdDoEach c fuel z st f
      ok st') = (do
      let (_, st') ← callAll f st (pairCalls d l)
      ok st') := by
  have h := strideZip_emits (represents_slice c l) d hw hu
  rw [strideZip_fresh]
  simp only [ok_bind, simdIter]
  rw [zsimdDoEach_emits f h fuel st (by simpa [fullWindows_length, pairsOf_length] using hfuel)]
  simp only [bind_assoc, ok_bind, pairCalls]

/-- **C29**, any closure, `simd_map` and `scalar_collect`: exactly the result. -/
theorem C29_stride_zip_collect {β σ : Type} [Packable β] {w' : Nat} (c : Cfg) (fuel : Nat)
    (l : List α) (d : Vector α w) (st : σ) (f : FnMut σ (Vector α w × Vector α w) (Vector β w'))
    (hw : 0 < w) (hw' : 0 < w') (hs : 0 < Packable.size β)
    (hsize : w * Packable.size α = w' * Packable.size β)
    (hu : l.length + 2 * w < c.usize) (hu' : (l.length / 2 / w + 1) * w' < c.usize)
    (hvec : w * Packable.size α < c.usize) (hfuel : l.length / 2 / w < fuel) :
    (do
      let z ← strideZip c (simdIter l d)
      let (_, out) ← scalarCollect c fuel (zsimdMap z st f)
      ok out) = (do
      let (outs, _) ← callAll f st (pairCalls d l)
      ok ((unpad (zpadOf (pairTail d l) * Packable.size α / Packable.size β) outs).map some)) := by
  have h := strideZip_emits (represents_slice c l) d hw hu
  have hlen : ∀ z : StrideZip (SIMDIter (Slice α w) α w) α w, ∀ p, z.iter = ⟨p, ⟨l⟩, d⟩ →
      SIMDZippedIterator.len c z = ok (l.length / 2 / w) := by
    intro z p hz
    have := (simdIter_driver (represents_slice c l) d hw (by omega)).len p
    simp only [SIMDZippedIterator.len, hz, this, ok_bind]
    rw [Nat.div_div_eq_div_mul, Nat.div_div_eq_div_mul, Nat.mul_comm]
  have hfl : ((fullWindows w (pairsOf l)).map unzipV).length = l.length / 2 / w := by
    simp [fullWindows_length, pairsOf_length]
  rw [strideZip_fresh]
  simp only [ok_bind, simdIter]
  rw [scalarCollect_zipMap f h (sz := Packable.size α) rfl hw' hs (hlen _ _ rfl) (by omega) _ _
    hu' fuel (by omega) st]
  · simp only [bind_assoc, ok_bind, pairCalls]
  · intro _
    rw [hfl]
    exact hlen _ _ rfl
  · intro p n hpn
    have h1 := pairTail_lt hw hpn
    have h2 : n * Packable.size α ≤ w * Packable.size α := Nat.mul_le_mul_right _ h1
    refine ⟨by omega, ?_⟩
    rw [hsize] at h2
    exact Nat.div_le_of_le_mul (by rw [Nat.mul_comm (Packable.size β)]; exact h2)

/-- **C29**, lane-wise map: the full windows of pairs are right; then come the
lanes of the tail which `end` does not report as empty. -/
theorem C29_stride_zip_lanewise {β : Type} [Packable β] (c : Cfg) (fuel : Nat)
    (l : List α) (d : Vector α w) (g : α → α → β)
    (hw : 0 < w) (hs : 0 < Packable.size β) (hsize : Packable.size α = Packable.size β)
    (hu : l.length + 2 * w < c.usize)
    (hvec : w * Packable.size α < c.usize) (hfuel : l.length / 2 / w < fuel) :
    (do
      let z ← strideZip c (simdIter l d)
      let (_, out) ← scalarCollect c fuel
        (zsimdMap z () (pureFn fun (v : Vector α w × Vector α w) => Vector.zipWith g v.1 v.2))
      ok out) =
      ok ((((pairsOf l).take (l.length / 2 / w * w)).map (fun p => g p.1 p.2) ++
        (pairTail d l).toList.flatMap fun t =>
          (Vector.zipWith g t.1.1 t.1.2).toList.drop t.2).map some) := by
  have h1 := Nat.div_mul_le_self (l.length / 2) w
  rw [C29_stride_zip_collect c fuel l d () _ hw hw hs (by rw [hsize]) hu
    (by rw [Nat.succ_mul]; omega) hvec hfuel, callAll_pure]
  simp only [ok_bind]
  rw [← hsize, Nat.mul_div_cancel _ (by omega)]
  congr 2
  have hz : (fun (v : Vector α w × Vector α w) => Vector.zipWith g v.1 v.2) ∘ unzipV =
      Vector.map (fun p : α × α => g p.1 p.2) := by
    funext v; ext i hi; simp [unzipV]
  have key : lanes (fullWindows w (pairsOf l)) = (pairsOf l).take (l.length / 2 / w * w) := by
    have h2 := lanes_fullWindows hw (pairsOf l)
    have h3 : (lanes (fullWindows w (pairsOf l))).length = l.length / 2 / w * w := by
      rw [lanes_length, fullWindows_length, pairsOf_length]
    calc _ = (lanes (fullWindows w (pairsOf l)) ++ leftover w (pairsOf l)).take
          (lanes (fullWindows w (pairsOf l))).length := List.take_left.symm
      _ = _ := by rw [h2, h3]
  rw [pairCalls, zwithTail, List.map_append, List.map_map, hz, ← key, ← lanes_map]
  rcases pairTail d l with _ | ⟨v, n⟩
  · simp [zpadOf, unpad_zero]
  · simp only [zpadOf, Option.map_some, Option.getD_some, Option.toList_some, List.map_cons,
      List.map_nil, unpad_concat]
    simp [-lanes_append]

/-- **C29**, the part which holds: if the length is a multiple of two vectors,
the result is `g` of all consecutive pairs. Missing: all other lengths, for which
the result is wrong (`C29_tail_extra`, `C29_tail_default`, `C29_tail_lost`). -/
theorem C29_stride_zip_partial {β : Type} [Packable β] (c : Cfg) (fuel : Nat)
    (l : List α) (d : Vector α w) (g : α → α → β) (h0 : l.length % (2 * w) = 0)
    (hw : 0 < w) (hs : 0 < Packable.size β) (hsize : Packable.size α = Packable.size β)
    (hu : l.length + 2 * w < c.usize)
    (hvec : w * Packable.size α < c.usize) (hfuel : l.length / 2 / w < fuel) :
    (do
      let z ← strideZip c (simdIter l d)
      let (_, out) ← scalarCollect c fuel
        (zsimdMap z () (pureFn fun (v : Vector α w × Vector α w) => Vector.zipWith g v.1 v.2))
      ok out) = ok (((pairsOf l).map (fun p => g p.1 p.2)).map some) := by
  rw [C29_stride_zip_lanewise c fuel l d g hw hs hsize hu hvec hfuel]
  have h1 := Nat.div_add_mod l.length (2 * w)
  have h2 : l.length / 2 / w * w = l.length / 2 := by
    rw [Nat.div_div_eq_div_mul]
    generalize l.length / (2 * w) = m at *
    have : 2 * w * m = 2 * (m * w) := by rw [Nat.mul_assoc, Nat.mul_comm w m]
    omega
  rw [h2, List.take_of_length_le (by rw [pairsOf_length]; omega), pairTail]
  simp [h0]

/-- The number of results which a lane-wise map over `stride_zip` produces. -/
def pairCount (w len : Nat) : Nat :=
  let r := len % (2 * w)
  len / 2 / w * w +
    (if r = 0 then 0 else if r < w then w - (w - r) / 2 else if r = w then w - w / 2
     else w - (w + (2 * w - r)) / 2)

omit [Packable α] in
/-- Length of the result in `C29_stride_zip_lanewise`. -/
theorem C29_length {β : Type} (l : List α) (d : Vector α w) (g : α → α → β) :
    (((pairsOf l).take (l.length / 2 / w * w)).map (fun p => g p.1 p.2) ++
        (pairTail d l).toList.flatMap fun t =>
          (Vector.zipWith g t.1.1 t.1.2).toList.drop t.2).length = pairCount w l.length := by
  have h1 := Nat.div_mul_le_self (l.length / 2) w
  rw [List.length_append, List.length_map, List.length_take, pairsOf_length, pairCount,
    Nat.min_eq_left h1]
  congr 1
  simp only [pairTail]
  repeat' split
  all_goals simp

/-- **C29 is false**: a rest of fewer than `w` elements gives too many results. -/
theorem C29_tail_extra (len : Nat) (h0 : 0 < len % (2 * w)) (h1 : len % (2 * w) < w) :
    len / 2 < pairCount w len := by
  have h2 := Nat.div_add_mod len (2 * w)
  have h3 : len / 2 / w * w = len / (2 * w) * w := by rw [Nat.div_div_eq_div_mul]
  have h4 : 2 * w * (len / (2 * w)) = 2 * (len / (2 * w) * w) := by
    rw [Nat.mul_assoc, Nat.mul_comm w]
  simp only [pairCount]
  rw [if_neg (by omega), if_pos h1, h3]
  omega

/-- **C29 is false**: a rest of more than `w` elements gives too few results (from
four lanes on). -/
theorem C29_tail_lost (len : Nat) (h0 : w < len % (2 * w)) (hw : 4 ≤ w) :
    pairCount w len < len / 2 := by
  have hm := Nat.mod_lt len (show 0 < 2 * w by omega)
  have h2 := Nat.div_add_mod len (2 * w)
  have h3 : len / 2 / w * w = len / (2 * w) * w := by rw [Nat.div_div_eq_div_mul]
  have h4 : 2 * w * (len / (2 * w)) = 2 * (len / (2 * w) * w) := by
    rw [Nat.mul_assoc, Nat.mul_comm w]
  simp only [pairCount]
  rw [if_neg (by omega), if_neg (by omega), if_neg (by omega), h3]
  omega

omit [Packable α] in
/-- **C29 is false**: with a rest of exactly one vector, the last `w/2` results
are computed from the default vector alone, not from the data. -/
theorem C29_tail_default {β : Type} (l : List α) (d : Vector α w) (g : α → α → β)
    (h0 : l.length % (2 * w) = w) (h2 : w % 2 = 0) (hw : 0 < w) :
    ∃ t, pairTail d l = some t ∧ t.2 = w / 2 ∧ ∀ (j : Nat) (hj : w / 2 ≤ j) (hjw : j < w),
      (Vector.zipWith g t.1.1 t.1.2)[j] =
        g (d[2 * j - w]'(by omega)) (d[2 * j + 1 - w]'(by omega)) := by
  refine ⟨_, by simp only [pairTail]; rw [if_neg (by omega), if_neg (by omega), if_pos h0], rfl, ?_⟩
  intro j hj hjw
  simp only [Vector.getElem_zipWith, Packed.destrideTwo, Vector.getElem_ofFn]
  rw [Vector.getElem_append, Vector.getElem_append, dif_neg (by omega), dif_neg (by omega)]

/-- Instances: for 12, 10 and 14 elements in vectors of four lanes, and for three
elements in vectors of two lanes, the sums of pairs are wrong. -/
theorem C29_false :
    let run (w : Nat) (l : List (BitVec 8)) (d : Vector (BitVec 8) w) := (do
      let z ← strideZip debug64 (simdIter l d)
      let (_, out) ← scalarCollect debug64 9 (zsimdMap z ()
        (pureFn fun (v : Vector (BitVec 8) w × Vector (BitVec 8) w) => Vector.zipWith (· + ·) v.1 v.2))
      ok out)
    run 4 [1, 2, 3, 4, 5, 6, 7, 8, 9, 10, 11, 12] #v[0, 0, 0, 0] =
      ok ([3, 7, 11, 15, 0, 0].map some) ∧
    run 4 [1, 2, 3, 4, 5, 6, 7, 8, 9, 10] #v[0, 0, 0, 0] =
      ok ([3, 7, 11, 15, 19, 0, 0].map some) ∧
    run 4 [1, 2, 3, 4, 5, 6, 7, 8, 9, 10, 11, 12, 13, 14] #v[0, 0, 0, 0] =
      ok ([3, 7, 11, 15, 27].map some) ∧
    run 2 [1, 2, 4] #v[0, 0] = ok ([4].map some) := by
  decide +kernel

/-- **C33** for `stride_zip`: `scalar_len` is the number of pairs and `len` the
number of full vectors of pairs. -/
theorem C33_stride_zip_lengths (c : Cfg) (l : List α) (d : Vector α w) (p : Nat) (hw : 0 < w)
    (hu : l.length + w < c.usize) :
    let z : StrideZip (SIMDIter (Slice α w) α w) α w := ⟨0, none, ⟨p, ⟨l⟩, d⟩⟩
    SIMDZippedIterator.scalarLen c z = ok (pairsOf l).length ∧
    SIMDZippedIterator.len c z = ok ((pairsOf l).length / w) := by
  intro z
  have := (simdIter_driver (represents_slice c l) d hw hu).len p
  refine ⟨?_, ?_⟩
  · simp only [SIMDZippedIterator.scalarLen, z, SIMDSized.scalarLen, ok_bind, pairsOf_length]
  · simp only [SIMDZippedIterator.len, z, this, ok_bind, pairsOf_length]
    rw [Nat.div_div_eq_div_mul, Nat.div_div_eq_div_mul, Nat.mul_comm]

/-- **C34** for `stride_zip`: `advance(n)` skips `n` pairs. -/
theorem C34_stride_zip_advance (c : Cfg) (l : List α) (d : Vector α w) (p n : Nat)
    (hu : p * 2 + n * 2 < c.usize) :
    let z (p : Nat) : StrideZip (SIMDIter (Slice α w) α w) α w := ⟨0, none, ⟨p * 2, ⟨l⟩, d⟩⟩
    SIMDZippedIterator.advance c (z p) n = ok (z (p + n)) ∧
    SIMDZippedIterator.scalarPos c (z p) = ok p := by
  intro z
  refine ⟨?_, ?_⟩
  · simp only [SIMDZippedIterator.advance, z]
    rw [umul_ok (by omega)]
    simp only [ok_bind, SIMDIterable.advance, SIMDIter.advance]
    rw [uadd_ok (by omega)]
    simp only [ok_bind, show p * 2 + 2 * n = (p + n) * 2 by omega]
  · simp only [SIMDZippedIterator.scalarPos, z, SIMDIterable.scalarPos, ok_bind]
    rw [usub_ok (by omega)]
    simp

example : (do
      let z ← strideZip debug64 (simdIter [1#8, 2, 3, 4, 5, 6, 7, 8] #v[0#8, 0])
      let (_, out) ← scalarCollect debug64 9 (zsimdMap z ()
        (pureFn fun (v : Vector (BitVec 8) 2 × Vector (BitVec 8) 2) => Vector.zipWith (· + ·) v.1 v.2))
      ok out) = ok ([3#8, 7, 11, 15].map some) := by decide +kernel

end Faster
