import Verif.Props.Merge
import Verif.Props.Shuffle
import Verif.Props.Cast
import Verif.Props.Abs
import Verif.Props.FloatUse
/-
The assertions of the documentation examples in `src/intrin/*.rs`, with arbitrary values in
place of the literals and for every version of the functions (C115).
-/
namespace Faster
open Res

variable {α : Type} {n w s k : Nat}

theorem splat_get (x : α) {i : Nat} (h : i < w) : (Packed.splat x : Vector α w)[i] = x := by
  simp [Packed.splat]

theorem halfs_toList (hw : w % 2 = 0) (x y : α) :
    (halfs x y : Vector α w).toList = List.replicate (w / 2) x ++ List.replicate (w / 2) y := by
  apply List.ext_getElem
  · simp; omega
  · intro i h1 h2
    by_cases h : i < w / 2
    · rw [List.getElem_append_left (by simpa using h)]
      simp [halfs, h]
    · rw [List.getElem_append_right (by simpa using h)]
      simp [halfs, h]

/-! ### `src/intrin/merge.rs:17,30,43` -/

/-- **C115**, merges of constant vectors are the patterns; fallback versions. -/
theorem C115_merge_fallback (c : Cfg) (hw : w % 2 = 0) (x y : α) :
    mergeHalvesFallback c (Packed.splat x : Vector α w) (Packed.splat y) = ok (halfs x y) ∧
    mergeInterleavedFallback c (Packed.splat x : Vector α w) (Packed.splat y) = ok (interleave x y) ∧
    ∀ off, off < w → Packed.mergePartitioned c (Packed.splat x : Vector α w) (Packed.splat y) off =
      partitionTable x y off := by
  refine ⟨?_, ?_, fun off ho => ?_⟩
  · rw [C35_halves_fallback]
    congr 1
    apply Vector.ext; intro i hi
    simp [select, halfs, Packed.splat]
  · rw [C35_interleaved_fallback c hw]
    congr 1
    apply Vector.ext; intro i hi
    simp [select, interleave, Packed.splat]
  · rw [C35_partitioned_fallback c _ _ ho]
    unfold partitionTable
    rw [decide_eq_true (show off ≤ w by omega), assert_true, ok_bind]
    congr 1
    apply Vector.ext; intro i hi
    simp [select, Packed.splat]

/-- The same for the SSE4.1/AVX2 versions; here the width itself is an offset, too. -/
theorem C115_merge_blend (c : Cfg) (hn : n = 8 * s) (hs : 0 < s) (hd : 64 % s = 0)
    (hws : w * s ≤ 64) (hc : 64 < c.usize) (x y : BitVec n) :
    mergeHalvesBlend (Packed.splat x : Vector (BitVec n) w) (Packed.splat y) = halfs x y ∧
    mergeInterleavedBlend (Packed.splat x : Vector (BitVec n) w) (Packed.splat y) = interleave x y ∧
    ∀ off, off ≤ w → mergePartitionedBlend c (Packed.splat x : Vector (BitVec n) w) (Packed.splat y) off =
      partitionTable x y off := by
  refine ⟨?_, ?_, fun off ho => ?_⟩
  · rw [C35_halves_blend hn hs]
    apply Vector.ext; intro i hi
    simp [select, halfs, Packed.splat]
  · rw [C35_interleaved_blend hn hs]
    apply Vector.ext; intro i hi
    simp [select, interleave, Packed.splat]
  · rw [C35_partitioned_blend c hn hs hd hws hc _ _ ho]
    unfold partitionTable
    rw [decide_eq_true ho, assert_true, ok_bind]
    congr 1
    apply Vector.ext; intro i hi
    simp [select, Packed.splat]

example : mergeHalvesBlend (Packed.splat 2#8 : Vector _ 4) (Packed.splat 3#8) = #v[2#8, 2#8, 3#8, 3#8] := by
  decide +kernel

/-! ### `src/intrin/swizzle.rs:18-19` -/

/-- **C115**: `flip` of an interleaved pattern exchanges the two values. -/
theorem C115_flip :
    (∀ r ∈ flipRows, ∀ x y : BitVec (8 * r.size),
      flipFallback r.idx (interleave x y : Vector (BitVec (8 * r.size)) r.width) = ok (interleave y x) ∧
      flipShuffle r.ctl (interleave x y : Vector (BitVec (8 * r.size)) r.width) = interleave y x) ∧
    (∀ r ∈ flipRows512, ∀ x y : BitVec (8 * r.size),
      flipFallback r.idx (interleave x y : Vector (BitVec (8 * r.size)) r.width) = ok (interleave y x)) := by
  have key : ∀ {w} (hw : w % 2 = 0) {n} (x y : BitVec n),
      flipSpec hw (interleave x y : Vector (BitVec n) w) = interleave y x := by
    intro w hw n x y
    apply Vector.ext; intro i hi
    by_cases h : i % 2 = 0
    · have h1 : (i + 1) % 2 ≠ 0 := by omega
      simp [flipSpec, interleave, h, h1]
    · have h1 : (i - 1) % 2 = 0 := by omega
      simp [flipSpec, interleave, h, h1]
  refine ⟨fun r hr x y => ?_, fun r hr x y => ?_⟩
  · obtain ⟨hw, h⟩ := C58.1 r hr
    obtain ⟨h1, h2⟩ := h (interleave x y)
    exact ⟨by rw [h1, key], by rw [h2, key]⟩
  · obtain ⟨hw, h⟩ := C58.2 r hr
    rw [h, key]

/-! ### `src/intrin/upcast.rs:23` -/

theorem halves_of_halfs {β : Type} {w' : Nat} (hw : w = 2 * w') (f : α → β) (x y : α)
    (a b : Vector β w') (h : a.toList ++ b.toList = (halfs x y : Vector α w).toList.map f) :
    a = Packed.splat (f x) ∧ b = Packed.splat (f y) := by
  rw [halfs_toList (by omega), List.map_append, List.map_replicate, List.map_replicate,
    show w / 2 = w' by omega] at h
  obtain ⟨h1, h2⟩ := List.append_inj h (by simp)
  constructor
  · apply Vector.toList_inj.mp
    rw [h1]; simp [Packed.splat]
  · apply Vector.toList_inj.mp
    rw [h2]; simp [Packed.splat]

/-- **C115**: `upcast` of two halves gives two constant vectors, all versions, also to float. -/
theorem C115_upcast (r : UpRow) (conv : BitVec (8 * r.size) → BitVec (16 * r.size))
    (x y : BitVec (8 * r.size)) :
    (r ∈ upcastRows ++ upcastRowsUnknown →
      upcastFallback (widen conv r.kind r.toKind) r.first r.second
        (halfs x y : Vector (BitVec (8 * r.size)) r.width) =
      ok ((Packed.splat (widen conv r.kind r.toKind x) : Vector (BitVec (16 * r.size)) (r.width / 2)),
        (Packed.splat (widen conv r.kind r.toKind y) : Vector (BitVec (16 * r.size)) (r.width / 2)))) ∧
    (r ∈ upcastRows → ∀ mm, r.mm = some mm →
      upcastInstr conv mm (halfs x y : Vector (BitVec (8 * r.size)) r.width) =
      ok ((Packed.splat (widen conv r.kind r.toKind x) : Vector (BitVec (16 * r.size)) (r.width / 2)),
        (Packed.splat (widen conv r.kind r.toKind y) : Vector (BitVec (16 * r.size)) (r.width / 2)))) := by
  have hw : ∀ r ∈ upcastRows ++ upcastRowsUnknown, r.width = 2 * (r.width / 2) := by decide +kernel
  constructor
  · intro hr
    obtain ⟨a, b, h1, h2⟩ := C45_order_fallback r hr conv (halfs x y)
    obtain ⟨rfl, rfl⟩ := halves_of_halfs (hw r hr) _ x y a b h2
    exact h1
  · intro hr mm hm
    obtain ⟨a, b, h1, h2⟩ := C45_order_optimized r hr mm hm conv (halfs x y)
    obtain ⟨rfl, rfl⟩ := halves_of_halfs (hw r (List.mem_append_left _ hr)) _ x y a b h2
    exact h1

/-! ### `src/intrin/downcast.rs:23-24` -/

/-- What the documentation promises of a downcast of two constant vectors: the two values,
clamped, in halves. -/
def IsHalves (signed : Bool) (x y : BitVec n) (o : Vector (BitVec k) (2 * w)) : Prop :=
  ∃ x' y', num signed x' = nearest signed k (num signed x) ∧
    num signed y' = nearest signed k (num signed y) ∧ o = halfs x' y'

theorem isHalves_iff (hw : 0 < w) (signed : Bool) (x y : BitVec n) (o : Vector (BitVec k) (2 * w)) :
    IsHalves signed x y o ↔
      IsDowncast signed (Packed.splat x : Vector (BitVec n) w) (Packed.splat y) o := by
  have hr : ∀ x : BitVec n, (Packed.splat x : Vector (BitVec n) w).toList = List.replicate w x := by
    intro x; simp [Packed.splat]
  unfold IsDowncast
  rw [hr, hr, List.map_append, List.map_replicate, List.map_replicate]
  constructor
  · rintro ⟨x', y', h1, h2, rfl⟩
    rw [halfs_toList (by omega), List.map_append, List.map_replicate, List.map_replicate, h1, h2,
      show 2 * w / 2 = w by omega]
  · intro h
    have hl : ∀ i (hi : i < 2 * w), num signed o[i] =
        if i < w then nearest signed k (num signed x) else nearest signed k (num signed y) := by
      intro i hi
      have h1 : (o.toList.map (num signed))[i]? = some (num signed o[i]) := by simp [hi]
      rw [h] at h1
      by_cases hiw : i < w
      · rw [List.getElem?_append_left (by simpa using hiw)] at h1
        rw [if_pos hiw]
        simp [hiw] at h1
        exact h1.symm
      · rw [List.getElem?_append_right (by simpa using hiw)] at h1
        rw [if_neg hiw]
        have : i - w < w := by omega
        simp [this] at h1
        exact h1.symm
    refine ⟨o[0], o[w], ?_, ?_, ?_⟩
    · rw [hl 0 (by omega), if_pos hw]
    · rw [hl w (by omega), if_neg (by omega)]
    · apply Vector.ext; intro i hi
      apply num_inj signed
      rw [hl i hi]
      unfold halfs
      rw [Vector.getElem_ofFn]
      by_cases hiw : i < w
      · rw [if_pos hiw, if_pos (by simp only; omega), hl 0 (by omega), if_pos hw]
      · rw [if_neg hiw, if_neg (by simp only; omega), hl w (by omega), if_neg (by omega)]

/-- **C115**, `saturating_downcast` of two constant vectors gives the clamped values in halves:
fallbacks other than u64, and the signed 128-bit packs. -/
theorem C115_downcast_partial (r : DownRow) (hk : r.kind ≠ .f) (x y : BitVec (16 * r.size)) :
    (r ∈ downcastRows ++ downcastRowsUnknown → ¬ (r.kind = .u ∧ r.size = 4) →
      ∃ o : Vector (BitVec (8 * r.size)) (2 * r.width),
        downcastFallback r.kind r.lanes (Packed.splat x : Vector _ r.width) (Packed.splat y) = ok o ∧
        IsHalves r.kind.signed x y o) ∧
    (r ∈ downcastRows → ∀ mm, r.mm = some mm → 16 * r.size * r.width = 128 → r.kind = .i →
      ∃ o : Vector (BitVec (8 * r.size)) (2 * r.width),
        downcastInstr mm (Packed.splat x : Vector _ r.width) (Packed.splat y) = ok o ∧
        IsHalves true x y o) := by
  have hw : ∀ r ∈ downcastRows ++ downcastRowsUnknown, 0 < r.width := by decide +kernel
  constructor
  · intro hr h64
    obtain ⟨o, h1, h2⟩ := C46_fallback_partial r hr hk h64 (Packed.splat x) (Packed.splat y)
    exact ⟨o, h1, (isHalves_iff (hw r hr) _ x y o).mpr h2⟩
  · intro hr mm hm h128 hki
    obtain ⟨o, h1, h2⟩ := C46_packs128_partial r hr mm hm h128 hki (Packed.splat x) (Packed.splat y)
    exact ⟨o, h1, (isHalves_iff (hw r (List.mem_append_left _ hr)) _ x y o).mpr h2⟩

/-- The signed AVX2 packs do so only if the clamped values are equal. -/
theorem C115_downcast256 (r : DownRow) (hr : r ∈ downcastRows) (mm : Instr) (hm : r.mm = some mm)
    (h256 : 16 * r.size * r.width = 256) (hk : r.kind = .i) (x y : BitVec (16 * r.size)) :
    ∃ o : Vector (BitVec (8 * r.size)) (2 * r.width),
      downcastInstr mm (Packed.splat x : Vector _ r.width) (Packed.splat y) = ok o ∧
      (IsHalves true x y o ↔
        nearest true (8 * r.size) (num true x) = nearest true (8 * r.size) (num true y)) := by
  have hw : ∀ r ∈ downcastRows, 2 ≤ r.width ∧ r.width % 2 = 0 := by decide +kernel
  obtain ⟨hw, hw2⟩ := hw r hr
  obtain ⟨o, h1, h2⟩ := C46_packs256_iff r hr mm hm h256 hk (Packed.splat x) (Packed.splat y)
  refine ⟨o, h1, ?_⟩
  rw [isHalves_iff (by omega), h2]
  simp only [Packed.splat, Vector.toList_replicate, List.drop_replicate, List.take_replicate,
    List.map_replicate]
  rw [show min (r.width / 2) r.width = r.width - r.width / 2 by omega, List.replicate_inj]
  omega

/-- The example of the documentation fails with AVX2: `i32s(2).saturating_downcast(i32s(3))` is
not `i16s::halfs(2, 3)`. -/
theorem C115_false : ∃ r ∈ downcastRows, ∃ mm, r.mm = some mm ∧ r.vec = "i32x8" ∧
    downcastInstr mm (Packed.splat 2#32 : Vector _ 8) (Packed.splat 3#32) =
      ok #v[2#16, 2, 2, 2, 3, 3, 3, 3, 2, 2, 2, 2, 3, 3, 3, 3] ∧
    (halfs 2#16 3#16 : Vector _ 16) = #v[2#16, 2, 2, 2, 2, 2, 2, 2, 3, 3, 3, 3, 3, 3, 3, 3] := by
  have h : (downcastRows.any fun r => r.vec == "i32x8" && r.mm == some .mm256_packs_epi32) = true := by
    decide +kernel
  obtain ⟨r, hr, h⟩ := List.any_eq_true.mp h
  simp only [Bool.and_eq_true, beq_iff_eq] at h
  exact ⟨r, hr, _, h.2, h.1, by decide +kernel, by decide +kernel⟩

/-! ### `src/intrin/eq.rs:23-24,38-39` -/

/-- All bits of a lane, or none. -/
def maskOf (n : Nat) (p : Prop) [Decidable p] : BitVec n := if p then BitVec.allOnes n else 0#n

theorem eqMask_pattern (p : Nat → Bool) (x y z : BitVec n) (v : Vector (BitVec n) w)
    (h : IsEqMask (Vector.ofFn fun i => if p i.val then x else y) (Packed.splat z) v) :
    v = (Vector.ofFn fun i => if p i.val then maskOf n (x = z) else maskOf n (y = z)) ∧
    neMask v = (Vector.ofFn fun i => if p i.val then maskOf n (x ≠ z) else maskOf n (y ≠ z)) := by
  have hv : ∀ i (hi : i < w), v[i] = if p i then maskOf n (x = z) else maskOf n (y = z) := by
    intro i hi
    obtain ⟨h1, h2⟩ := h i hi
    simp only [Vector.getElem_ofFn, splat_get] at h1 h2
    have key : v[i] = maskOf n ((if p i then x else y) = z) := by
      apply BitVec.eq_of_getLsbD_eq
      intro j hj
      unfold maskOf
      by_cases hc : (if p i then x else y) = z
      · rw [h1 hc j hj, if_pos hc]; simp [hj]
      · rw [h2 hc j hj, if_neg hc]; simp
    rw [key]
    cases p i <;> rfl
  constructor
  · apply Vector.ext; intro i hi
    rw [hv i hi, Vector.getElem_ofFn]
  · apply Vector.ext; intro i hi
    unfold neMask
    simp only [Vector.getElem_ofFn]
    rw [show v[(⟨i, hi⟩ : Fin w)] = v[i] from rfl, hv i hi]
    have hm : ∀ (q : Prop) [Decidable q], maskOf n q ^^^ BitVec.allOnes n = maskOf n (¬ q) := by
      intro q _
      unfold maskOf
      by_cases hq : q <;> simp [hq]
    have ho : (ones : Vector (BitVec n) w)[(⟨i, hi⟩ : Fin w)] = BitVec.allOnes n := by
      exact splat_get _ hi
    rw [ho]
    cases p i
    · simpa using hm (y = z)
    · simpa using hm (x = z)

/-- **C115**: the masks of a pattern compared with a constant are the pattern of the two
comparisons, for `eq_mask` and `ne_mask`, both versions. -/
theorem C115_eq_mask (c : Cfg) (r : BinRow) (hk : r.kind ≠ .f) (x y z : BitVec (8 * r.size))
    (f : Vector (BitVec (8 * r.size)) r.width → Vector (BitVec (8 * r.size)) r.width →
      Res (Vector (BitVec (8 * r.size)) r.width))
    (hf : r ∈ eqRows ∧ f = binaryInstr r.mm ∨
      (r ∈ eqRows ∨ r ∈ eqRowsUnknown) ∧ f = binaryFallback (r.fn.eval c r.kind) r.idx) :
    f (halfs x y) (Packed.splat z) = ok (halfs (maskOf _ (x = z)) (maskOf _ (y = z))) ∧
    f (interleave x y) (Packed.splat z) = ok (interleave (maskOf _ (x = z)) (maskOf _ (y = z))) ∧
    (f (halfs x y) (Packed.splat z) >>= fun m => ok (neMask m)) =
      ok (halfs (maskOf _ (x ≠ z)) (maskOf _ (y ≠ z))) ∧
    (f (interleave x y) (Packed.splat z) >>= fun m => ok (neMask m)) =
      ok (interleave (maskOf _ (x ≠ z)) (maskOf _ (y ≠ z))) := by
  have key : ∀ a b, ∃ v, f a b = ok v ∧ IsEqMask a b v := by
    intro a b
    rcases hf with ⟨hr, rfl⟩ | ⟨hr, rfl⟩
    · exact C50_optimized r hr hk a b
    · exact C50_fallback c r hr hk a b
  obtain ⟨v, h1, h2⟩ := key (halfs x y) (Packed.splat z)
  obtain ⟨u, h3, h4⟩ := key (interleave x y) (Packed.splat z)
  obtain ⟨e1, e2⟩ := eqMask_pattern (fun i => decide (i < r.width / 2)) x y z v
    (by simpa [halfs] using h2)
  obtain ⟨e3, e4⟩ := eqMask_pattern (fun i => decide (i % 2 = 0)) x y z u
    (by simpa [interleave] using h4)
  rw [h1, h3, ok_bind, ok_bind, e2, e4, e1, e3]
  simp [halfs, interleave]

/-! ### `src/intrin/cmp.rs:16-17,29-30` -/

/-- **C115**: `min` and `max` of two patterns, both versions. -/
theorem C115_min_max (c : Cfg) (r : BinRow) (hk : r.kind ≠ .f) (x y x' y' : BitVec (8 * r.size))
    (f : Vector (BitVec (8 * r.size)) r.width → Vector (BitVec (8 * r.size)) r.width →
      Res (Vector (BitVec (8 * r.size)) r.width))
    (hf : r ∈ cmpRows ∧ f = binaryInstr r.mm ∨
      (r ∈ cmpRows ∨ r ∈ cmpRowsUnknown) ∧ f = binaryFallback (r.fn.eval c r.kind) r.idx) :
    ∃ m m', IsExtreme r.kind.signed (r.fn == .max) x x' m ∧
      IsExtreme r.kind.signed (r.fn == .max) y y' m' ∧
      f (Packed.splat x) (Packed.splat x') = ok (Packed.splat m) ∧
      f (halfs x y) (halfs x' y') = ok (halfs m m') ∧
      f (interleave x y) (interleave x' y') = ok (interleave m m') := by
  have key : ∀ a b, ∃ v, f a b = ok v ∧ ∀ i (hi : i < r.width),
      IsExtreme r.kind.signed (r.fn == .max) a[i] b[i] v[i] := by
    intro a b
    rcases hf with ⟨hr, rfl⟩ | ⟨hr, rfl⟩
    · exact C51_optimized r hr hk a b
    · exact C51_fallback c r hr hk a b
  have hw : ∀ r, r ∈ cmpRows ∨ r ∈ cmpRowsUnknown → 2 ≤ r.width := by
    have : ∀ r ∈ cmpRows ++ cmpRowsUnknown, 2 ≤ r.width := by decide +kernel
    intro r hr; exact this r (List.mem_append.mpr hr)
  have hw : 2 ≤ r.width := hw r (by rcases hf with h | h; exact Or.inl h.1; exact h.1)
  have uniq : ∀ {a b u v : BitVec (8 * r.size)}, IsExtreme r.kind.signed (r.fn == .max) a b u →
      IsExtreme r.kind.signed (r.fn == .max) a b v → u = v := by
    intro a b u v hu hv
    exact num_inj _ (hu.2.trans hv.2.symm)
  obtain ⟨u, h1, h2⟩ := key (interleave x y) (interleave x' y')
  obtain ⟨v, h3, h4⟩ := key (halfs x y) (halfs x' y')
  obtain ⟨t, h5, h6⟩ := key (Packed.splat x) (Packed.splat x')
  have hm := h2 0 (by omega)
  have hm' := h2 1 (by omega)
  simp only [interleave, Vector.getElem_ofFn, Nat.zero_mod, Nat.one_mod, if_true, one_ne_zero,
    if_false] at hm hm'
  refine ⟨u[0], u[1], hm, hm', ?_, ?_, ?_⟩
  · rw [h5]; congr 1
    apply Vector.ext; intro i hi
    have := h6 i hi
    rw [splat_get, splat_get] at this
    rw [splat_get]
    exact uniq this hm
  · rw [h3]; congr 1
    apply Vector.ext; intro i hi
    have := h4 i hi
    simp only [halfs, Vector.getElem_ofFn] at this ⊢
    by_cases h : i < r.width / 2
    · rw [if_pos h, if_pos h] at this
      rw [if_pos h]
      exact uniq this hm
    · rw [if_neg h, if_neg h] at this
      rw [if_neg h]
      exact uniq this hm'
  · rw [h1]; congr 1
    apply Vector.ext; intro i hi
    have := h2 i hi
    unfold interleave at this ⊢
    simp only [Vector.getElem_ofFn] at this ⊢
    by_cases h : i % 2 = 0
    · rw [if_pos h, if_pos h] at this
      rw [if_pos h]
      exact uniq this hm
    · rw [if_neg h, if_neg h] at this
      rw [if_neg h]
      exact uniq this hm'

/-! ### `src/intrin/endian.rs:16`, `src/intrin/abs.rs:19-20` -/

/-- **C115**: `swap_bytes` of a constant vector is the constant with its bytes reversed. -/
theorem C115_swap_bytes :
    (∀ r ∈ swapRows, ∀ x : BitVec (8 * r.size),
      swapBytesFallback r.idx (Packed.splat x : Vector _ r.width) = ok (Packed.splat (swapBytesScalar x)) ∧
      swapBytesShuffle r.ctl (Packed.splat x : Vector _ r.width) = Packed.splat (swapBytesScalar x) ∧
      ∀ t, t < r.size → byte (swapBytesScalar x) t = byte x (r.size - 1 - t)) ∧
    (∀ r ∈ swapRows512 ++ swapRowsUnknown, ∀ x : BitVec (8 * r.size),
      swapBytesFallback r.idx (Packed.splat x : Vector _ r.width) = ok (Packed.splat (swapBytesScalar x))) := by
  have key : ∀ {n w} (x : BitVec n), (Packed.splat x : Vector _ w).map swapBytesScalar =
      Packed.splat (swapBytesScalar x) := by
    intro n w x
    apply Vector.ext; intro i hi
    simp [Packed.splat]
  refine ⟨fun r hr x => ?_, fun r hr x => ?_⟩
  · obtain ⟨h1, h2⟩ := C38_swap_bytes.1 r hr (Packed.splat x)
    rw [key] at h1 h2
    exact ⟨h1, h2, fun t ht => swapBytesScalar_byte rfl x ht⟩
  · rw [C38_swap_bytes.2 r hr, key]

example : swapBytesScalar 0xDEADBEEF#32 = 0xEFBEADDE#32 := by decide +kernel

/-- **C115**: `abs` of a constant vector of signed integers is the constant vector of its
magnitude, as an unsigned number. -/
theorem C115_abs (r : AbsRow) (hk : r.kind = .i) (x : BitVec (8 * r.size)) :
    (r ∈ absRows ∨ r ∈ absRowsUnknown →
      absFallback r.kind r.idx (Packed.splat x : Vector _ r.width) =
        ok (Packed.splat (BitVec.ofNat _ x.toInt.natAbs))) ∧
    (r ∈ absRows → ∀ mm, r.mm = some mm → absOptimized mm r.mask (Packed.splat x : Vector _ r.width) =
        ok (Packed.splat (BitVec.ofNat _ x.toInt.natAbs))) := by
  have key : ∀ o : Vector (BitVec (8 * r.size)) r.width, IsAbs (Packed.splat x) o →
      o = Packed.splat (BitVec.ofNat _ x.toInt.natAbs) := by
    intro o h
    apply Vector.ext; intro i hi
    have h1 := h i hi
    rw [splat_get] at h1
    rw [splat_get]
    have h2 : o[i].toNat = x.toInt.natAbs := by
      split at h1 <;> omega
    rw [← h2, BitVec.ofNat_toNat, BitVec.setWidth_eq]
  constructor
  · intro hr
    obtain ⟨o, h1, h2⟩ := C44_int_fallback r hr hk (Packed.splat x)
    rw [h1, key o h2]
  · intro hr mm hm
    obtain ⟨o, h1, h2⟩ := C44_int_optimized r hr hk mm hm (Packed.splat x)
    rw [h1, key o h2]

/-! ### `src/intrin/sqrt.rs:19-20`, `src/intrin/round.rs:17-68` -/

/-- **C115**: `sqrt` of a constant vector of a square is the constant vector of its root, with and
without the instruction: if the square of the positive float `y` is the float `x`, then
`sqrt(x) = y`. -/
theorem C115_sqrt (opt : Bool) (r : UnRow) (hr : r ∈ sqrtRows ++ sqrtRowsUnknown)
    (x y : BitVec (8 * r.size)) (a : ℚ) (ha : 0 < a) (hy : ieee y = .fin a) (hx : ieee x = .fin (a * a)) :
    sqrtOf opt r (Packed.splat x : Vector _ r.width) = ok (Packed.splat y) := by
  have hn := (rootRows_facts r (by simp only [List.mem_append] at hr ⊢; tauto)).2.2
  obtain ⟨o, h1, h2⟩ := C69_sqrt opt r hr (Packed.splat x)
  rw [h1]; congr 1
  apply Vector.ext; intro i hi
  have h3 := h2 i hi
  rw [splat_get] at h3
  unfold IsRoot at h3
  rw [hx] at h3
  simp only [mul_self_nonneg, if_true] at h3
  have hs : Real.sqrt ((a * a : ℚ) : ℝ) = a := by
    push_cast
    exact Real.sqrt_mul_self (by exact_mod_cast ha.le)
  rw [hs] at h3
  rw [splat_get]
  have h4 := isRoundOf_exact hn hy h3.1
  have hpos : ∀ z : BitVec (8 * r.size), ieee z = .fin a → z.msb = false := by
    intro z hz
    by_contra hc
    have := (fin_ieee hn hz).2
    unfold fsign at this
    rw [if_pos (by simpa using hc)] at this
    have h3 : (0 : ℚ) ≤ (fnum z : ℚ) / 2 ^ fone (8 * r.size) := by positivity
    linarith
  exact bits_eq_of_ieee hn (by rw [h4]; simp) (by rw [hpos _ h4, hpos _ hy]) (by rw [h4, hy])

/-- The examples with integers: `f32s(k * k).sqrt()` is `f32s(k)`. -/
theorem C115_sqrt_int (opt : Bool) (r : UnRow) (hr : r ∈ sqrtRows ++ sqrtRowsUnknown) (k : Nat)
    (h0 : 0 < k) (hk : k * k ≤ 2 ^ (if 8 * r.size = 32 then 24 else 53)) :
    sqrtOf opt r (Packed.splat (fofInt (8 * r.size) (k * k : Nat)) : Vector _ r.width) =
      ok (Packed.splat (fofInt (8 * r.size) k)) := by
  have hn := (rootRows_facts r (by simp only [List.mem_append] at hr ⊢; tauto)).2.2
  have hm : (if 8 * r.size = 32 then 24 else 53) = mantBits (8 * r.size) + 1 := by
    rcases hn with h | h <;> rw [h] <;> rfl
  rw [hm] at hk
  have hkk : k ≤ k * k := Nat.le_mul_of_pos_left k h0
  refine C115_sqrt opt r hr _ _ (k : ℚ) (by exact_mod_cast h0) ?_ ?_
  · have := fofInt_exact (k := 8 * r.size) hn (z := (k : ℤ)) (by simpa using le_trans hkk hk)
    simpa using this
  · have := fofInt_exact (k := 8 * r.size) hn (z := ((k * k : Nat) : ℤ))
      (by rw [Int.natAbs_natCast]; exact hk)
    simpa using this

example : fofInt 32 4 = 0x40800000#32 ∧ fofInt 32 2 = 0x40000000#32 := by decide +kernel

/-- **C115**: `ceil`, `floor` and `trunc` of a constant vector are the constant vector of the
rounded value, with and without the instruction. -/
theorem C115_round_directed (r : UnRow) (hf : r.fn ≠ .round) (x y : BitVec (8 * r.size))
    (hx : ieee x ≠ .nan) (hy : IsRounded (directed r.fn) x y) :
    (r ∈ roundRows → roundOptimized r (Packed.splat x : Vector _ r.width) = ok (Packed.splat y)) ∧
    (r ∈ roundRows ∨ r ∈ roundRowsUnknown →
      roundFallback r (Packed.splat x : Vector _ r.width) = ok (Packed.splat y)) := by
  have hn : ∀ r ∈ roundRows ++ roundRowsUnknown, 8 * r.size = 32 ∨ 8 * r.size = 64 := by
    decide +kernel
  have hn := hn r
  constructor
  · intro hr
    obtain ⟨o, h1, h2⟩ := C67_optimized r hr hf (Packed.splat x)
    rw [h1]; congr 1
    apply Vector.ext; intro i hi
    have h3 := h2 i hi
    rw [splat_get] at h3 ⊢
    exact rounded_unique (hn (List.mem_append_left _ hr)) (P := directed r.fn)
      (fun _ _ _ => directed_unique) hx h3 hy
  · intro hr
    obtain ⟨o, h1, h2⟩ := C67_fallback r hr hf (Packed.splat x)
    rw [h1]; congr 1
    apply Vector.ext; intro i hi
    have h3 := h2 i hi
    rw [splat_get] at h3 ⊢
    exact rounded_unique (hn (List.mem_append.mpr hr)) (P := directed r.fn)
      (fun _ _ _ => directed_unique) hx h3 hy

/-- Not halfway between two integers, so that there is one nearest integer. -/
def NoTie (x : BitVec n) : Prop := ∀ (v : ℚ) (k : ℤ), ieee x = .fin v → |v - k| ≠ 1 / 2

/-- **C115**: `round` of a constant vector of a number which is not halfway between two integers is
the constant vector of the nearest integer, with and without the instruction. -/
theorem C115_round_partial (r : UnRow) (hf : r.fn = .round) (x y : BitVec (8 * r.size))
    (hx : ieee x ≠ .nan) (ht : NoTie x) (hy : IsRounded IsNearest x y) :
    (r ∈ roundRows → roundOptimized r (Packed.splat x : Vector _ r.width) = ok (Packed.splat y)) ∧
    (r ∈ roundRows ∨ r ∈ roundRowsUnknown →
      roundFallback r (Packed.splat x : Vector _ r.width) = ok (Packed.splat y)) := by
  have hn : ∀ r ∈ roundRows ++ roundRowsUnknown, 8 * r.size = 32 ∨ 8 * r.size = 64 := by
    decide +kernel
  have hn := hn r
  have key : ∀ (P : ℚ → ℤ → Prop), (∀ v k, P v k → IsNearest v k) →
      ∀ z, IsRounded P x z → 8 * r.size = 32 ∨ 8 * r.size = 64 → z = y := by
    intro P hP z hz hn
    refine rounded_unique hn (P := fun v k => IsNearest v k ∧ ∀ j : ℤ, |v - j| ≠ 1 / 2) ?_ hx ?_ ?_
    · rintro v k k' ⟨h1, h2⟩ ⟨h3, -⟩
      by_contra hne
      have e1 := h1 k'
      have e2 := h3 k
      have e3 := h2 k
      have h4 : (1 : ℚ) ≤ |(k : ℚ) - k'| := by
        rw [← Int.cast_sub, ← Int.cast_abs]
        exact_mod_cast Int.one_le_abs (sub_ne_zero.2 hne)
      have h5 : |(k : ℚ) - k'| ≤ |v - k| + |v - k'| := by
        rw [abs_sub_comm v k]
        calc |(k : ℚ) - k'| = |(k - v) + (v - k')| := by congr 1; ring
          _ ≤ _ := abs_add_le _ _
      have h6 : |v - k| ≤ 1 / 2 := by
        have a1 := h1 ⌊v⌋
        have a2 := h1 (⌊v⌋ + 1)
        have b1 := Int.floor_le v
        have b2 := Int.lt_floor_add_one v
        rw [abs_of_nonneg (by linarith : 0 ≤ v - (⌊v⌋ : ℚ))] at a1
        push_cast at a2
        rw [abs_of_nonpos (by linarith : v - ((⌊v⌋ : ℚ) + 1) ≤ 0)] at a2
        linarith
      have h7 : |v - k| = |v - k'| := le_antisymm e1 e2
      have : |v - k| = 1 / 2 := by linarith
      exact e3 this
    · unfold IsRounded at hz ⊢
      cases hv : ieee x with
      | nan => exact absurd hv hx
      | inf t => rw [hv] at hz; exact hz
      | fin v =>
        rw [hv] at hz
        obtain ⟨h1, k, h2, h3⟩ := hz
        exact ⟨h1, k, h2, hP v k h3, fun j => ht v j hv⟩
    · unfold IsRounded at hy ⊢
      cases hv : ieee x with
      | nan => exact absurd hv hx
      | inf t => rw [hv] at hy; exact hy
      | fin v =>
        rw [hv] at hy
        obtain ⟨h1, k, h2, h3⟩ := hy
        exact ⟨h1, k, h2, h3, fun j => ht v j hv⟩
  constructor
  · intro hr
    obtain ⟨o, h1, h2⟩ := C68_optimized r hr hf (Packed.splat x)
    rw [h1]; congr 1
    apply Vector.ext; intro i hi
    have h3 := h2 i hi
    rw [splat_get] at h3 ⊢
    exact key tiesEven (fun _ _ h => h.1) _ h3 (hn (List.mem_append_left _ hr))
  · intro hr
    obtain ⟨o, h1, h2⟩ := C68_fallback r hr hf (Packed.splat x)
    rw [h1]; congr 1
    apply Vector.ext; intro i hi
    have h3 := h2 i hi
    rw [splat_get] at h3 ⊢
    exact key tiesAway (fun _ _ h => h.1) _ h3 (hn (List.mem_append.mpr hr))

/-- The literals of the documentation: 2.7, 2.4, -2.7, -2.4 rounded in the four ways, with and
without the instruction. -/
example : ∀ r ∈ roundRows, r.vec = "f32x4" → ∀ p ∈ ([
    (.round, [(0x402CCCCD, 0x40400000), (0x4019999A, 0x40000000), (0xC02CCCCD, 0xC0400000), (0xC019999A, 0xC0000000)]),
    (.ceil, [(0x402CCCCD, 0x40400000), (0x4019999A, 0x40400000), (0xC02CCCCD, 0xC0000000), (0xC019999A, 0xC0000000)]),
    (.floor, [(0x402CCCCD, 0x40000000), (0x4019999A, 0x40000000), (0xC02CCCCD, 0xC0400000), (0xC019999A, 0xC0400000)]),
    (.trunc, [(0x402CCCCD, 0x40000000), (0x4019999A, 0x40000000), (0xC02CCCCD, 0xC0000000), (0xC019999A, 0xC0000000)])] :
      List (UnFn × List (Nat × Nat))), r.fn = p.1 → ∀ q ∈ p.2,
    roundOptimized r (Packed.splat (BitVec.ofNat _ q.1)) = ok (Packed.splat (BitVec.ofNat _ q.2)) ∧
    roundFallback r (Packed.splat (BitVec.ofNat _ q.1)) = ok (Packed.splat (BitVec.ofNat _ q.2)) := by
  decide +kernel

end Faster
