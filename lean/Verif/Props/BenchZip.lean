import Verif.BenchZip
import Verif.Props.EndToEnd
import Verif.Props.Kernels
import Verif.Props.StrideZip
import Verif.Props.ZipLanes
import Verif.Props.FloatUse
import Verif.Props.FloatError
/-
C110: the zip benchmarks compute what the scalar loops beside them compute.
-/
namespace Faster
open Res

variable {α β : Type}

/-- Number and contents of the pieces. -/
theorem chunks_eq {k : Nat} (hk : 0 < k) (l : List α) (h : l.length % k = 0) :
    chunks k l = (List.range (l.length / k)).map fun i => (l.drop (i * k)).take k := by
  have h1 := Nat.div_add_mod l.length k
  have : (l.length + k - 1) / k = l.length / k := by
    rw [show l.length + k - 1 = k - 1 + k * (l.length / k) by omega, Nat.add_mul_div_left _ _ hk,
      Nat.div_eq_of_lt (by omega), Nat.zero_add]
  rw [chunks, this]

theorem at_ok {m : List α} {j : Nat} (h : j < m.length) : at' m j = ok m[j] := by
  simp [at', h]

theorem at_panic {m : List α} {j : Nat} (h : m.length ≤ j) : at' m j = panic := by
  simp [at', h]

theorem chunk_getElem {k i j : Nat} (l : List α) (hj : j < k) (h : i * k + k ≤ l.length) :
    at' ((l.drop (i * k)).take k) j = ok (l[k * i + j]'(by rw [Nat.mul_comm]; omega)) := by
  rw [at_ok (by simp; omega)]
  simp [Nat.mul_comm]

theorem chunksM_ok {f : α → Res β} {g : α → β} {l : List α} (h : ∀ x ∈ l, f x = ok (g x)) :
    l.mapM f = ok (l.map g) := by
  induction l with
  | nil => rfl
  | cons x l ih =>
    rw [List.mapM_cons, h x (by simp), ok_bind, ih fun y hy => h y (by simp [hy])]
    rfl

theorem chunksM_panic {f : α → Res β} {x : α} {l : List α} (h : ∀ y ∈ l, ∃ z, f y = ok z)
    (hx : f x = panic) : (l ++ [x]).mapM f = panic := by
  induction l with
  | nil => simp [List.mapM_cons, hx]
  | cons y l ih =>
    obtain ⟨z, hz⟩ := h y (by simp)
    rw [List.cons_append, List.mapM_cons, hz, ok_bind, ih fun y hy => h y (by simp [hy])]
    rfl

/-- A scalar loop over `chunks(k)` whose closure needs all `k` elements: it succeeds exactly
if the length is a multiple of `k`, and panics otherwise. -/
theorem chunks_loop {k : Nat} (hk : 0 < k) (l : List α) (f : List α → Res β) (F : Nat → β)
    (hfull : ∀ i, i * k + k ≤ l.length → f ((l.drop (i * k)).take k) = ok (F i))
    (hshort : ∀ m : List α, m.length < k → f m = panic) :
    (chunks k l).mapM f =
      if l.length % k = 0 then ok ((List.range (l.length / k)).map F) else panic := by
  have h1 := Nat.div_add_mod l.length k
  have hm := Nat.mod_lt l.length hk
  have hle : ∀ i < l.length / k, i * k + k ≤ l.length := by
    intro i hi
    have := Nat.mul_le_mul_left k (show i + 1 ≤ l.length / k by omega)
    rw [Nat.mul_add, Nat.mul_one, Nat.mul_comm k i] at this
    omega
  split
  · rename_i h
    rw [chunks_eq hk l h, List.mapM_map, chunksM_ok (g := F)]
    intro i hi
    exact hfull i (hle i (List.mem_range.1 hi))
  · rename_i h
    have hc : (l.length + k - 1) / k = l.length / k + 1 := by
      rw [show l.length + k - 1 = (l.length % k - 1) + k * (l.length / k + 1) by
        rw [Nat.mul_add]; omega, Nat.add_mul_div_left _ _ hk, Nat.div_eq_of_lt (by omega),
        Nat.zero_add]
    rw [chunks, hc, List.range_succ, List.map_append, List.map_singleton]
    refine chunksM_panic ?_ (hshort _ ?_)
    · intro y hy
      obtain ⟨i, hi, rfl⟩ := List.mem_map.1 hy
      exact ⟨_, hfull i (hle i (List.mem_range.1 hi))⟩
    · rw [List.length_take, List.length_drop, Nat.mul_comm]
      omega

/-! ### C110 -/

/-- **C110**, 3×3 determinants: for any slice `determinant3_simd` gives the determinants of
its complete matrices, bit for bit those of `determinant3_scalar`. If the last matrix is
incomplete the scalar version panics and the other one ignores it. -/
theorem C110_determinant3 (w : Nat) (c : Cfg) (fuel : Nat) (data : List (BitVec 32)) (hw : 0 < w)
    (hu : data.length + 9 * (w + 1) < c.usize) (hvec : w * 4 < c.usize)
    (hfuel : data.length / 9 / w < fuel) :
    ∃ out, determinant3Simd w c fuel data = ok (out.map some) ∧ out.length = data.length / 9 ∧
      determinant3Scalar data = if data.length % 9 = 0 then ok out else panic := by
  refine ⟨_, C84_determinant3 fmul fadd fsub c fuel data (fun _ => Packed.splat 0#32) hw (by decide)
    hu hvec hfuel, by simp, ?_⟩
  rw [determinant3Scalar, chunks_loop (by decide) data _ (fun i =>
    let m := fun j => data[9 * i + j]?.getD 0
    fsub (fsub (fsub (fadd (fadd (fmul (fmul (m 0) (m 4)) (m 8)) (fmul (fmul (m 1) (m 5)) (m 6)))
      (fmul (fmul (m 2) (m 3)) (m 7))) (fmul (fmul (m 2) (m 4)) (m 6)))
      (fmul (fmul (m 1) (m 3)) (m 8))) (fmul (fmul (m 0) (m 5)) (m 7)))]
  · congr 2
    apply List.ext_getElem
    · simp
    · intro i h1 h2
      simp only [List.length_map, List.length_range] at h1
      have hg : ∀ j, j < 9 → 9 * i + j < data.length := by omega
      have h0 := hg 0 (by decide)
      rw [Nat.add_zero] at h0
      simp [hg, h0]
  · intro i hi
    have hg : ∀ j, j < 9 → 9 * i + j < data.length := by omega
    have h0 := hg 0 (by decide)
    rw [Nat.add_zero] at h0
    simp only [chunk_getElem data (show 0 < 9 by decide) hi, chunk_getElem data (show 1 < 9 by decide) hi,
      chunk_getElem data (show 2 < 9 by decide) hi, chunk_getElem data (show 3 < 9 by decide) hi,
      chunk_getElem data (show 4 < 9 by decide) hi, chunk_getElem data (show 5 < 9 by decide) hi,
      chunk_getElem data (show 6 < 9 by decide) hi, chunk_getElem data (show 7 < 9 by decide) hi,
      chunk_getElem data (show 8 < 9 by decide) hi, ok_bind]
    simp [hg, h0]
  · intro m hm
    match m, hm with
    | [], _ => rfl
    | [_], _ => rfl
    | [_, _], _ => rfl
    | [_, _, _], _ => rfl
    | [_, _, _, _], _ => rfl
    | [_, _, _, _, _], _ => rfl
    | [_, _, _, _, _, _], _ => rfl
    | [_, _, _, _, _, _, _], _ => rfl
    | [_, _, _, _, _, _, _, _], _ => rfl
    | _ :: _ :: _ :: _ :: _ :: _ :: _ :: _ :: _ :: m, h => simp at h; omega

/-- **C110**, 2×2 determinants. -/
theorem C110_determinant2 (w : Nat) (c : Cfg) (fuel : Nat) (data : List (BitVec 32)) (hw : 0 < w)
    (hu : data.length + 4 * (w + 1) < c.usize) (hvec : w * 4 < c.usize)
    (hfuel : data.length / 4 / w < fuel) :
    ∃ out, determinant2Simd w c fuel data = ok (out.map some) ∧ out.length = data.length / 4 ∧
      determinant2Scalar data = if data.length % 4 = 0 then ok out else panic := by
  refine ⟨_, C74_determinant fmul fsub c fuel data (fun _ => Packed.splat 0#32) hw (by decide)
    hu hvec hfuel, by simp, ?_⟩
  rw [determinant2Scalar, chunks_loop (by decide) data _ (fun i =>
    fsub (fmul (data[4 * i + 0]?.getD 0) (data[4 * i + 3]?.getD 0))
      (fmul (data[4 * i + 1]?.getD 0) (data[4 * i + 2]?.getD 0)))]
  · congr 2
    apply List.ext_getElem
    · simp
    · intro i h1 h2
      simp only [List.length_map, List.length_range] at h1
      have hg : ∀ j, j < 4 → 4 * i + j < data.length := by omega
      have h0 := hg 0 (by decide)
      rw [Nat.add_zero] at h0
      simp [hg, h0]
  · intro i hi
    have hg : ∀ j, j < 4 → 4 * i + j < data.length := by omega
    have h0 := hg 0 (by decide)
    rw [Nat.add_zero] at h0
    simp only [chunk_getElem data (show 0 < 4 by decide) hi, chunk_getElem data (show 1 < 4 by decide) hi,
      chunk_getElem data (show 2 < 4 by decide) hi, chunk_getElem data (show 3 < 4 by decide) hi,
      ok_bind]
    simp [hg, h0]
  · intro m hm
    match m, hm with
    | [], _ => rfl
    | [_], _ => rfl
    | [_, _], _ => rfl
    | [_, _, _], _ => rfl
    | _ :: _ :: _ :: _ :: m, h => simp at h; omega

/-- A loop over pairs. -/
theorem pairs_loop [Inhabited α] (g : α → α → β) (data : List α) :
    ((chunks 2 data).mapM fun m => do
      let a ← at' m 0
      let b ← at' m 1
      ok (g a b)) =
    if data.length % 2 = 0 then ok (List.ofFn (n := data.length / 2) fun i =>
      g (data[2 * i.val]'(by omega)) (data[2 * i.val + 1]'(by omega))) else panic := by
  rw [chunks_loop (by decide) data _ (fun i => g (data[2 * i + 0]?.getD default) (data[2 * i + 1]?.getD default))]
  · congr 2
    apply List.ext_getElem
    · simp
    · intro i h1 h2
      simp only [List.length_map, List.length_range] at h1
      have h3 : 2 * i < data.length := by omega
      have h4 : 2 * i + 1 < data.length := by omega
      simp [h3, h4]
  · intro i hi
    have h3 : 2 * i < data.length := by omega
    have h4 : 2 * i + 1 < data.length := by omega
    simp only [chunk_getElem data (show 0 < 2 by decide) hi, chunk_getElem data (show 1 < 2 by decide) hi,
      ok_bind]
    simp [h3, h4]
  · intro m hm
    match m, hm with
    | [], _ => rfl
    | [_], _ => rfl
    | _ :: _ :: m, h => simp at h

/-- **C110**, `zip_nop_simd` and `zip_nop_scalar` (and `stride_zip_naive`): sums of pairs, for
any element type and any operation. -/
theorem C110_zip_nop [Packable α] [Inhabited α] (add : α → α → α) (z : α) (w : Nat) (c : Cfg) (fuel : Nat)
    (data : List α) (hw : 0 < w) (hs : 0 < Packable.size α)
    (hu : data.length + 2 * (w + 1) < c.usize) (hvec : w * Packable.size α < c.usize)
    (hfuel : data.length / 2 / w < fuel) :
    ∃ out, zipNopSimd add z w c fuel data = ok (out.map some) ∧ out.length = data.length / 2 ∧
      zipNopScalar add data = if data.length % 2 = 0 then ok out else panic := by
  obtain ⟨out, h1, h2, h3⟩ := C100_stride_two (P := fun _ (a b r : α) => r = add a b)
    (fun _ (v : Vector α w × Vector α w × Unit) => ok (Vector.zipWith add v.1 v.2.1, ()))
    (fun a b => ⟨_, rfl, fun j hj => by simp⟩) c fuel data (Packed.splat z) (Packed.splat z)
    hw hu hs rfl hvec hfuel
  refine ⟨out, h1, h2, ?_⟩
  rw [zipNopScalar, pairs_loop]
  congr 2
  apply List.ext_getElem
  · simp [h2]
  · intro i hi hi'
    rw [h3 i hi' (by omega) (by omega)]
    simp

/-- **C110**, `stride_zip` and `stride_zip_naive`: the same results for a multiple of two
vectors, as in the benchmarks. -/
theorem C110_stride_zip_partial [Packable α] [Inhabited α] (add : α → α → α) (z : α) (w : Nat) (c : Cfg)
    (fuel : Nat) (data : List α) (hw : 0 < w) (hs : 0 < Packable.size α)
    (hmul : data.length % (2 * w) = 0)
    (hu : data.length + 2 * (w + 1) < c.usize) (hvec : w * Packable.size α < c.usize)
    (hfuel : data.length / 2 / w < fuel) :
    strideZipBench add z w c fuel data = zipNopSimd add z w c fuel data := by
  obtain ⟨out, h1, h2, h3⟩ := C110_zip_nop add z w c fuel data hw hs hu hvec hfuel
  have heven : data.length % 2 = 0 := by
    have := Nat.mod_mul_right_mod data.length 2 w
    omega
  rw [if_pos heven, zipNopScalar, pairs_loop, if_pos heven] at h3
  injection h3 with h3
  rw [h1, ← h3]
  refine Eq.trans (C29_stride_zip_partial c fuel data (Packed.splat z) add hmul hw hs rfl (by omega)
    hvec hfuel) ?_
  congr 2
  rw [pairsOf, List.map_ofFn]
  rfl

/-- **C110** is false for `stride_zip` and other lengths: unless the rest is exactly one
vector, the numbers of results differ. -/
theorem C110_stride_zip_length [Packable α] [Inhabited α] (add : α → α → α) (z : α) (w : Nat) (c : Cfg)
    (fuel : Nat) (data : List α) (hw : 4 ≤ w) (hs : 0 < Packable.size α)
    (h0 : data.length % (2 * w) ≠ 0) (h1 : data.length % (2 * w) ≠ w)
    (hu : data.length + 2 * (w + 1) < c.usize) (hvec : w * Packable.size α < c.usize)
    (hfuel : data.length / 2 / w < fuel) :
    ∃ out out', strideZipBench add z w c fuel data = ok out ∧ zipNopSimd add z w c fuel data = ok out' ∧
      out.length ≠ out'.length := by
  obtain ⟨out, h2, h3, -⟩ := C110_zip_nop add z w c fuel data (by omega) hs hu hvec hfuel
  refine ⟨_, _, C29_stride_zip_lanewise c fuel data (Packed.splat z) add (by omega) hs rfl (by omega)
    hvec hfuel, h2, ?_⟩
  rw [List.length_map, C29_length, List.length_map, h3]
  rcases Nat.lt_or_ge (data.length % (2 * w)) w with h | h
  · exact (C29_tail_extra _ (by omega) h).ne'
  · exact (C29_tail_lost _ (by omega) hw).ne

/-- **C110**, a rest of exactly one vector, with an even number of lanes: as many results as
`zip_nop_simd` gives, and the first ones are the same, but the last half vector of results is
computed from the default alone. -/
theorem C110_stride_zip_one [Packable α] [Inhabited α] (add : α → α → α) (z : α) (w : Nat) (c : Cfg)
    (fuel : Nat) (data : List α) (hw : 0 < w) (heven : w % 2 = 0) (hs : 0 < Packable.size α)
    (h0 : data.length % (2 * w) = w)
    (hu : data.length + 2 * (w + 1) < c.usize) (hvec : w * Packable.size α < c.usize)
    (hfuel : data.length / 2 / w < fuel) :
    ∃ out : List α, zipNopSimd add z w c fuel data = ok (out.map some) ∧ out.length = data.length / 2 ∧
      strideZipBench add z w c fuel data =
        ok ((out.take (data.length / 2 - w / 2) ++ List.replicate (w / 2) (add z z)).map some) := by
  obtain ⟨out, h1, h2, h3⟩ := C110_zip_nop add z w c fuel data hw hs hu hvec hfuel
  have hdm := Nat.div_add_mod data.length (2 * w)
  have hq : data.length / 2 / w * w = data.length / 2 - w / 2 ∧ data.length % 2 = 0 := by
    rw [Nat.div_div_eq_div_mul]
    have : 2 * w * (data.length / (2 * w)) = 2 * (data.length / (2 * w) * w) := by
      rw [Nat.mul_assoc, Nat.mul_comm w]
    omega
  rw [if_pos hq.2, zipNopScalar, pairs_loop, if_pos hq.2] at h3
  injection h3 with h3
  refine ⟨out, h1, h2, ?_⟩
  refine Eq.trans (C29_stride_zip_lanewise c fuel data (Packed.splat z) add hw hs rfl (by omega)
    hvec hfuel) ?_
  have e1 : (pairsOf data).map (fun p => add p.1 p.2) = out := by
    rw [← h3, pairsOf, List.map_ofFn]
    rfl
  obtain ⟨t, h4, h5, h6⟩ := C29_tail_default data (Packed.splat z) add h0 heven hw
  rw [h4, List.map_take, e1, hq.1]
  congr 3
  simp only [Option.toList_some, List.flatMap_cons, List.flatMap_nil, List.append_nil, h5]
  apply List.ext_getElem
  · simp only [List.length_drop, Vector.length_toList, List.length_replicate]
    omega
  · intro i h7 h8
    simp only [List.length_replicate] at h8
    simp only [List.getElem_drop, List.getElem_replicate, Vector.getElem_toList]
    rw [h6 (w / 2 + i) (by omega) (by omega)]
    simp [Packed.splat]

/-- If the rest is exactly one vector, results of defaults appear: for 12 elements in vectors
of four. -/
theorem C110_stride_zip_false :
    strideZipBench (· + ·) 0#8 4 debug64 9 [1, 2, 3, 4, 5, 6, 7, 8, 9, 10, 11, 12] =
      ok ([3, 7, 11, 15, 0, 0].map some) ∧
    zipNopSimd (· + ·) 0#8 4 debug64 9 [1, 2, 3, 4, 5, 6, 7, 8, 9, 10, 11, 12] =
      ok ([3, 7, 11, 15, 19, 23].map some) := by decide +kernel

theorem natAbs_i32 (a : BitVec 32) : a.toInt.natAbs ≤ 2 ^ 31 := by
  have h1 := BitVec.le_toInt (x := a)
  have h2 := BitVec.toInt_lt (x := a)
  omega

/-- The sum of the magnitudes of two `i32` as `f64` is exact. -/
theorem zip_scalar_sum (a b : BitVec 32) :
    ieee (fadd (fabsScalar (fofInt 64 a.toInt)) (fabsScalar (fofInt 64 b.toInt))) =
      .fin ((a.toInt.natAbs + b.toInt.natAbs : ℕ) : ℚ) := by
  have habs : ∀ a : BitVec 32, ieee (fabsScalar (fofInt 64 a.toInt)) = .fin ((a.toInt.natAbs : ℤ) : ℚ) := by
    intro a
    have h := fofInt_exact (k := 64) (.inr rfl) (z := a.toInt)
      ((natAbs_i32 a).trans (by decide))
    rw [(fabs_facts (.inr rfl) h).2, ← Int.cast_abs, Int.abs_eq_natAbs]
  have h1 := natAbs_i32 a
  have h2 := natAbs_i32 b
  rw [fadd_int (.inr rfl) (habs a) (habs b) (by
    show _ ≤ 2 ^ 53
    rw [show ((a.toInt.natAbs : ℤ) + b.toInt.natAbs).natAbs = a.toInt.natAbs + b.toInt.natAbs by omega]
    exact (Nat.add_le_add h1 h2).trans (by decide))]
  rw [← Nat.cast_add, Int.cast_natCast]

/-- **C110**, `zip_scalar`: the sums of magnitudes rounded to `f32`. -/
theorem C110_zip_scalar (data : List (BitVec 32)) :
    ∃ out, zipScalar data = (if data.length % 2 = 0 then ok out else panic) ∧
      out.length = data.length / 2 ∧
      ∀ i (hi : i < out.length) (h0 : 2 * i < data.length) (h1 : 2 * i + 1 < data.length),
        IsRoundOf ((data[2 * i].toInt.natAbs + data[2 * i + 1].toInt.natAbs : ℕ) : ℝ) out[i] := by
  refine ⟨_, by rw [zipScalar, pairs_loop fun (a b : BitVec 32) => fconv 32
    (fadd (fabsScalar (fofInt 64 a.toInt)) (fabsScalar (fofInt 64 b.toInt)))], by simp, ?_⟩
  intro i hi h0 h1
  have := fconv_spec (k := 32) (.inr rfl) (.inl rfl) (zip_scalar_sum data[2 * i] data[2 * i + 1])
  simp only [List.getElem_ofFn]
  have h2 := this.1
  rw [Rat.cast_natCast] at h2
  exact h2

/-- **C110**, `zip_simd` and `zip_scalar` agree while the sums do not exceed 2^24: the float
has the value of the integer. -/
theorem C110_zip_partial {q : Nat} {ru : UpRow} {ra : AbsRow} {rd : DownRow}
    (h : ZipSimdRows q ru ra rd) (ou oa od : Bool) (c : Cfg) (fuel : Nat) (data : List (BitVec 32))
    (hu : data.length + 2 * (2 * q + 1) < c.usize) (h64 : 64 < c.usize)
    (hfuel : data.length / 2 / (2 * q) < fuel) (heven : data.length % 2 = 0)
    (hsmall : ∀ i (h0 : 2 * i < data.length) (h1 : 2 * i + 1 < data.length),
      data[2 * i].toInt.natAbs + data[2 * i + 1].toInt.natAbs ≤ 2 ^ 24) :
    ∃ outs out : List (BitVec 32), zipSimd (zipSimdOf q ru ra rd ou oa od) c fuel data = ok (outs.map some) ∧
      zipScalar data = ok out ∧ out.length = outs.length ∧
      ∀ i (h0 : i < out.length) (h1 : i < outs.length), ieee out[i] = .fin (outs[i].toNat : ℚ) := by
  obtain ⟨outs, e1, e2, e3⟩ := C100_zip_simd h ou oa od c fuel data hu h64 hfuel
  obtain ⟨out, f1, f2, f3⟩ := C110_zip_scalar data
  rw [if_pos heven] at f1
  refine ⟨outs, out, e1, f1, by omega, fun i h0 h1 => ?_⟩
  have hi0 : 2 * i < data.length := by omega
  have hi1 : 2 * i + 1 < data.length := by omega
  have hs := hsmall i hi0 hi1
  have h2 := e3 i h1 hi0 hi1
  rw [Nat.min_eq_left (by unfold zipTop; split <;> omega)] at h2
  have h3 := f3 i h0 hi0 hi1
  rw [h2]
  have h4 := fofInt_exact (k := 32) (.inl rfl) (z := ((data[2 * i].toInt.natAbs + data[2 * i + 1].toInt.natAbs : ℕ) : ℤ))
    (by show _ ≤ 2 ^ 24; omega)
  refine isRoundOf_exact (.inl rfl) (x := fofInt 32 _) (by rw [h4, Int.cast_natCast]) ?_
  rw [Rat.cast_natCast]
  exact h3

/-- **C110** is false for larger sums: 2^24 + 1 is rounded by `zip_scalar` and not by
`zip_simd`. -/
theorem C110_zip_false {q : Nat} {ru : UpRow} {ra : AbsRow} {rd : DownRow}
    (h : ZipSimdRows q ru ra rd) (ou oa od : Bool) :
    zipSimd (zipSimdOf q ru ra rd ou oa od) debug64 9 [0x1000000#32, 1#32] = ok [some 0x1000001#32] ∧
    zipScalar [0x1000000#32, 1#32] = ok [0x4B800000#32] ∧
    ieee (0x4B800000#32) = .fin (2 ^ 24) := by
  have hq := h.q_pos
  refine ⟨?_, by decide +kernel, ?_⟩
  · have hq' : q = 2 ∨ q = 4 := by
      obtain ⟨ed1, ed2, ed3⟩ := h.ed
      rw [← ed3]
      have : ∀ r ∈ downcastRows ++ downcastRowsUnknown, r.kind = .u → r.size = 4 →
        r.width = 2 ∨ r.width = 4 := by decide +kernel
      exact this rd h.hrd ed1 ed2
    rw [C100_zip_simd_partial h ou oa od debug64 9 _ (by
      show _ < 2 ^ 64
      simp only [List.length_cons, List.length_nil]
      omega) (by decide) (by
      simp only [List.length_cons, List.length_nil]
      have : (0 + 1 + 1) / 2 / (2 * q) ≤ 1 := Nat.div_le_self _ _
      omega) (by
      intro i h0 h1
      simp only [List.length_cons, List.length_nil] at h1
      obtain rfl : i = 0 := by omega
      clear h hq hq'
      decide +revert)]
    rfl
  · have := fofInt_exact (k := 32) (.inl rfl) (z := 2 ^ 24) (by decide)
    rw [show 0x4B800000#32 = fofInt 32 (2 ^ 24) by decide +kernel, this]
    norm_num

/-- **C110**, `nop_simd` and `nop_scalar`: the elements themselves. -/
theorem C110_nop [Packable α] (z : α) (w : Nat) (c : Cfg) (fuel : Nat) (data : List α) (hw : 0 < w)
    (hs : 0 < Packable.size α) (hlen : data.length + w < c.usize)
    (hvec : w * Packable.size α < c.usize) (hfuel : data.length / w < fuel) :
    nopSimd z w c fuel data = ok (data.map some) := by
  obtain ⟨out, h1, h2, h3⟩ := C70_collect (R := fun a b : α => b = a)
    (F := fun v : Vector α w => ok v) (fun v => ⟨v, rfl, fun i hi => rfl⟩) c fuel data
    (Packed.splat z) hw hs rfl hlen hvec hfuel
  refine Eq.trans h1 ?_
  congr 2
  apply List.ext_getElem h2
  intro i hi hi'
  exact h3 i hi' hi

/-- Two complete matrices and three more elements. -/
example :
    let m : List (BitVec 32) := [0x3F800000, 0x40000000, 0x40400000, 0x40800000, 0x40A00000,
      0x40400000, 0x3F800000, 0x40000000]
    determinant2Simd 4 debug64 9 m = ok ([0xC0000000#32, 0x40E00000].map some) ∧
    determinant2Scalar m = ok [0xC0000000#32, 0x40E00000] ∧
    determinant2Simd 4 debug64 9 (m ++ [0, 0, 0]) = ok ([0xC0000000#32, 0x40E00000].map some) ∧
    determinant2Scalar (m ++ [0, 0, 0]) = panic := by decide +kernel

/-- The identity matrix. -/
example :
    let m : List (BitVec 32) := [0x3F800000, 0, 0, 0, 0x3F800000, 0, 0, 0, 0x3F800000]
    determinant3Simd 4 debug64 9 m = ok [some 0x3F800000#32] ∧
    determinant3Scalar m = ok [0x3F800000#32] := by decide +kernel

example : nopSimd 0#8 4 debug64 9 [1, 2, 3, 4, 5] = ok ([1, 2, 3, 4, 5].map some) := by decide +kernel

end Faster
