import Verif.Lemmas.Shuffle
import Verif.Props.Merge
import Verif.StrideZip
/-
Byte shuffles and destriding: C38, C48, C49, C58.
-/
namespace Faster
open Res

variable {α : Type} {n w s : Nat}

/-- Lane lists of the merges are the ones assumed by `mergeHalvesFallback` and
`mergeInterleavedFallback`, for every type and target. -/
theorem C35_rows : ∀ r ∈ mergeRows ++ mergeRowsUnknown,
    r.first = List.range (r.width / 2) ∧ r.second = List.range' (r.width / 2) (r.width - r.width / 2) ∧
    r.both = List.range r.width ∧ r.width % 2 = 0 ∧ 64 % r.size = 0 ∧ r.width * r.size ≤ 64 := by
  decide +kernel

example : mergeRows.length = 30 ∧ mergeRowsUnknown.length = 10 := by decide

/-! ## C38: swap_bytes -/

/-- Byte `t` (little endian) of a lane. -/
def byte (x : BitVec n) (t : Nat) : BitVec 8 := x.extractLsb' (t * 8) 8

/-- Byte `t` of the scalar `swap_bytes` is byte `SIZE - 1 - t`. -/
theorem swapBytesScalar_byte (hn : n = 8 * s) (x : BitVec n) {t : Nat} (ht : t < s) :
    byte (swapBytesScalar x) t = byte x (s - 1 - t) := by
  have hsn : n / 8 = s := by omega
  apply BitVec.eq_of_getLsbD_eq
  intro k hk
  have h1 : t * 8 + k < n := by omega
  have h2 : (t * 8 + k) / 8 = t := by omega
  have h3 : (t * 8 + k) % 8 = k := by omega
  simp [byte, swapBytesScalar, hk, h1, h2, h3, hsn]

theorem ext_byte (hn : n = 8 * s) {x y : BitVec n} (h : ∀ t, t < s → byte x t = byte y t) : x = y := by
  apply BitVec.eq_of_getLsbD_eq
  intro k hk
  have := congrArg (fun z : BitVec 8 => z.getLsbD (k % 8)) (h (k / 8) (by omega))
  have hk8 : k % 8 < 8 := by omega
  simpa [byte, hk8, Nat.div_add_mod'] using this

/-- Scalar `swap_bytes` is an involution. -/
theorem swapBytesScalar_swap (hn : n = 8 * s) (x : BitVec n) :
    swapBytesScalar (swapBytesScalar x) = x := by
  apply ext_byte hn
  intro t ht
  rw [swapBytesScalar_byte hn _ ht, swapBytesScalar_byte hn _ (by omega)]
  congr 1
  omega

/-- A shuffle that reverses the bytes of every lane is lane-wise `swap_bytes`. -/
theorem shuffle_swap (ctl : List Nat) (hn : n = 8 * s)
    (hctl : ∀ p, p < w * s → ctl.getD p 0 = p / s * s + (s - 1 - p % s) ∧
      p / s * s + (s - 1 - p % s) < 128 ∧ (p / s * s + (s - 1 - p % s)) / 16 = p / 16 ∧
      p / s * s + (s - 1 - p % s) < w * s) (v : Vector (BitVec n) w) :
    shuffleLanes ctl v = v.map swapBytesScalar := by
  apply Vector.ext
  intro i hi
  apply BitVec.eq_of_getLsbD_eq
  intro k hk
  rw [shuffleLanes_getLsbD ctl v hn _ hctl hi hk]
  have hs : 0 < s := by omega
  have h1 : (i * s + k / 8) / s = i := by
    rw [Nat.mul_comm, Nat.mul_add_div hs, Nat.div_eq_of_lt (by omega), Nat.add_zero]
  have h2 : (i * s + k / 8) % s = k / 8 := by
    rw [Nat.mul_comm, Nat.mul_add_mod, Nat.mod_eq_of_lt (by omega)]
  have hin : i * n = 8 * (i * s) := by rw [hn]; ac_rfl
  have h3 : (i * s + (s - 1 - k / 8)) * 8 + k % 8 = i * n + ((s - 1 - k / 8) * 8 + k % 8) := by omega
  have hsn : n / 8 = s := by omega
  rw [h1, h2, h3, bit_lane v hi (by omega)]
  simp [swapBytesScalar, hk, hsn]

theorem swapFallback_eq {idx : List Nat} (hidx : idx = List.range w) (v : Vector (BitVec n) w) :
    swapBytesFallback idx v = ok (v.map swapBytesScalar) := by
  subst hidx
  refine newLanes_getElem _ (by simp) ?_
  intro i hi
  simp [extract_ok hi]

/-- C38: for every integer type, the fallback (any target) and the SSSE3/AVX2
shuffle (128- and 256-bit types) return the vector with the bytes of every lane
reversed. -/
theorem C38_swap_bytes :
    (∀ r ∈ swapRows, ∀ v : Vector (BitVec (8 * r.size)) r.width,
      swapBytesFallback r.idx v = ok (v.map swapBytesScalar) ∧
      swapBytesShuffle r.ctl v = v.map swapBytesScalar) ∧
    (∀ r ∈ swapRows512 ++ swapRowsUnknown, ∀ v : Vector (BitVec (8 * r.size)) r.width,
      swapBytesFallback r.idx v = ok (v.map swapBytesScalar)) := by
  have h1 : ∀ r ∈ swapRows, r.idx = List.range r.width ∧ ∀ p, p < r.width * r.size →
      r.ctl.getD p 0 = p / r.size * r.size + (r.size - 1 - p % r.size) ∧
      p / r.size * r.size + (r.size - 1 - p % r.size) < 128 ∧
      (p / r.size * r.size + (r.size - 1 - p % r.size)) / 16 = p / 16 ∧
      p / r.size * r.size + (r.size - 1 - p % r.size) < r.width * r.size := by decide +kernel
  have h2 : ∀ r ∈ swapRows512 ++ swapRowsUnknown, r.idx = List.range r.width := by decide +kernel
  exact ⟨fun r hr v => ⟨swapFallback_eq (h1 r hr).1 v, shuffle_swap r.ctl rfl (h1 r hr).2 v⟩,
    fun r hr v => swapFallback_eq (h2 r hr) v⟩

example : (swapRows.map (·.vec)) = ["u8x32", "u8x16", "i8x32", "i8x16",
     "u16x16", "u16x8", "i16x16", "i16x8", "u32x8", "u32x4", "i32x8", "i32x4",
     "u64x4", "u64x2", "i64x4", "i64x2"] := by decide +kernel

/-- C38: byte `t` of lane `i` after `swap_bytes` is byte `SIZE-1-t` of lane `i`. -/
theorem C38_bytes (hn : n = 8 * s) (v : Vector (BitVec n) w) {i t : Nat} (hi : i < w) (ht : t < s) :
    byte ((v.map swapBytesScalar)[i]) t = byte v[i] (s - 1 - t) := by
  rw [Vector.getElem_map, swapBytesScalar_byte hn _ ht]

/-- C38: `swap_bytes` twice is the identity, in the shuffle version and in the
fallback, for every type. -/
theorem C38_involution :
    ∀ r ∈ swapRows, ∀ v : Vector (BitVec (8 * r.size)) r.width,
      swapBytesShuffle r.ctl (swapBytesShuffle r.ctl v) = v ∧
      (swapBytesFallback r.idx v >>= fun u => swapBytesFallback r.idx u) = ok v := by
  intro r hr v
  have h := fun v => C38_swap_bytes.1 r hr v
  have hinv : (v.map swapBytesScalar).map swapBytesScalar = v := by
    apply Vector.ext
    intro i hi
    simp [swapBytesScalar_swap rfl]
  constructor
  · rw [(h _).2, (h _).2, hinv]
  · rw [(h v).1, ok_bind, (h _).1, hinv]

/-- C38: the conversions are mutually inverse on targets of either endianness, and
`to_le`/`from_le` are the identity on little-endian, `to_be`/`from_be` on
big-endian targets. -/
theorem C38_conversions (big : Bool) {swap : α → α} (hinv : ∀ v, swap (swap v) = v) (v : α) :
    fromBe big swap (toBe big swap v) = v ∧ toBe big swap (fromBe big swap v) = v ∧
    fromLe big swap (toLe big swap v) = v ∧ toLe big swap (fromLe big swap v) = v ∧
    toLe false swap v = v ∧ fromLe false swap v = v ∧
    toBe true swap v = v ∧ fromBe true swap v = v ∧
    toBe big swap (toLe big swap v) = swap v := by
  cases big <;> simp [toBe, fromBe, toLe, fromLe, hinv]

/-- C38 for the actual types: the conversions built on the shuffles. -/
theorem C38 : ∀ r ∈ swapRows, ∀ (big : Bool) (v : Vector (BitVec (8 * r.size)) r.width),
    let swap := swapBytesShuffle r.ctl
    swapBytesFallback r.idx v = ok (swap v) ∧ swap (swap v) = v ∧
    fromBe big swap (toBe big swap v) = v ∧ toBe big swap (fromBe big swap v) = v ∧
    fromLe big swap (toLe big swap v) = v ∧ toLe big swap (fromLe big swap v) = v ∧
    toLe false swap v = v ∧ fromLe false swap v = v ∧
    ∀ i (hi : i < r.width) t, t < r.size → byte ((swap v)[i]) t = byte v[i] (r.size - 1 - t) := by
  intro r hr big v swap
  have h := fun v => C38_swap_bytes.1 r hr v
  have hinv : ∀ v, swap (swap v) = v := fun v => (C38_involution r hr v).1
  obtain ⟨h1, h2, h3, h4, h5, h6, _⟩ := C38_conversions big hinv v
  refine ⟨by rw [(h v).1, ← (h v).2], hinv v, h1, h2, h3, h4, h5, h6, ?_⟩
  intro i hi t ht
  have : (swap v)[i] = (v.map swapBytesScalar)[i] := by
    congr 1; exact (h v).2
  rw [this, C38_bytes rfl v hi ht]

example : swapBytesShuffle [3, 2, 1, 0, 7, 6, 5, 4, 11, 10, 9, 8, 15, 14, 13, 12]
    #v[0xDEADBEEF#32, 1#32, 2#32, 3#32] =
    #v[0xEFBEADDE#32, 0x01000000#32, 0x02000000#32, 0x03000000#32] := by decide +kernel

/-! ## C58: flip swaps neighbours -/

/-- Specification: lane `i` of the result is lane `i + 1` for even `i`, lane
`i - 1` for odd `i`. -/
def flipSpec (hw : w % 2 = 0) (v : Vector α w) : Vector α w :=
  Vector.ofFn fun i => if h : i.val % 2 = 0 then v[i.val + 1]'(by omega) else v[i.val - 1]

theorem flipFallback_eq {idx : List Nat} (hw : w % 2 = 0) (hidx : idx = List.range w) (v : Vector α w) :
    flipFallback idx v = ok (flipSpec hw v) := by
  subst hidx
  obtain ⟨k, rfl⟩ : ∃ k, w = 2 * k := ⟨w / 2, by omega⟩
  unfold flipFallback
  rw [pairs_range, List.flatMap_map, flatMap_pair]
  refine newLanes_getElem _ (by simp) ?_
  intro i hi
  by_cases h : i % 2 = 0
  · have h2 : 2 * (i / 2) + 1 = i + 1 := by omega
    simp [flipSpec, h, h2, extract_ok (v := v) (i := i + 1) (by omega)]
  · have h2 : 2 * (i / 2) = i - 1 := by omega
    simp [flipSpec, h, h2, extract_ok (v := v) (i := i - 1) (by omega)]

theorem shuffle_flip (ctl : List Nat) (hn : n = 8 * s) (hw : w % 2 = 0)
    (hctl : ∀ p, p < w * s → ctl.getD p 0 = (if p / s % 2 = 0 then p + s else p - s) ∧
      (if p / s % 2 = 0 then p + s else p - s) < 128 ∧
      (if p / s % 2 = 0 then p + s else p - s) / 16 = p / 16 ∧
      (if p / s % 2 = 0 then p + s else p - s) < w * s) (v : Vector (BitVec n) w) :
    shuffleLanes ctl v = flipSpec hw v := by
  apply Vector.ext
  intro i hi
  apply BitVec.eq_of_getLsbD_eq
  intro k hk
  rw [shuffleLanes_getLsbD ctl v hn _ hctl hi hk]
  have hs : 0 < s := by omega
  have h1 : (i * s + k / 8) / s = i := by
    rw [Nat.mul_comm, Nat.mul_add_div hs, Nat.div_eq_of_lt (by omega), Nat.add_zero]
  rw [h1]
  by_cases h : i % 2 = 0
  · have h3 : (i * s + k / 8 + s) * 8 + k % 8 = (i + 1) * n + k := by
      have : (i + 1) * n = 8 * (i * s) + 8 * s := by rw [hn, Nat.add_mul, Nat.one_mul]; congr 1; ac_rfl
      omega
    rw [if_pos h, h3, bit_lane v (by omega) hk]
    simp [flipSpec, h]
  · obtain ⟨j, rfl⟩ : ∃ j, i = j + 1 := ⟨i - 1, by omega⟩
    have h3 : ((j + 1) * s + k / 8 - s) * 8 + k % 8 = j * n + k := by
      have : j * n = 8 * (j * s) := by rw [hn]; ac_rfl
      rw [Nat.add_mul, Nat.one_mul]
      omega
    rw [if_neg h, h3, bit_lane v (by omega) hk]
    simp [flipSpec, h]

/-- C58: `flip` exchanges lanes `2k` and `2k + 1`, in the fallback and in the
SSSE3/AVX2 shuffle version, for every type. -/
theorem C58 :
    (∀ r ∈ flipRows, ∃ hw : r.width % 2 = 0, ∀ v : Vector (BitVec (8 * r.size)) r.width,
      flipFallback r.idx v = ok (flipSpec hw v) ∧ flipShuffle r.ctl v = flipSpec hw v) ∧
    (∀ r ∈ flipRows512, ∃ hw : r.width % 2 = 0, ∀ v : Vector (BitVec (8 * r.size)) r.width,
      flipFallback r.idx v = ok (flipSpec hw v)) := by
  have h1 : ∀ r ∈ flipRows, r.width % 2 = 0 ∧ r.idx = List.range r.width ∧ ∀ p, p < r.width * r.size →
      r.ctl.getD p 0 = (if p / r.size % 2 = 0 then p + r.size else p - r.size) ∧
      (if p / r.size % 2 = 0 then p + r.size else p - r.size) < 128 ∧
      (if p / r.size % 2 = 0 then p + r.size else p - r.size) / 16 = p / 16 ∧
      (if p / r.size % 2 = 0 then p + r.size else p - r.size) < r.width * r.size := by decide +kernel
  have h2 : ∀ r ∈ flipRows512, r.width % 2 = 0 ∧ r.idx = List.range r.width := by decide +kernel
  exact ⟨fun r hr => ⟨(h1 r hr).1, fun v => ⟨flipFallback_eq _ (h1 r hr).2.1 v,
      shuffle_flip r.ctl rfl _ (h1 r hr).2.2 v⟩⟩,
    fun r hr => ⟨(h2 r hr).1, fun v => flipFallback_eq _ (h2 r hr).2 v⟩⟩

/-- `flip` is an involution. -/
theorem C58_involution (hw : w % 2 = 0) (v : Vector α w) : flipSpec hw (flipSpec hw v) = v := by
  apply Vector.ext
  intro i hi
  by_cases h : i % 2 = 0
  · have h2 : ¬ (i + 1) % 2 = 0 := by omega
    simp [flipSpec, h, h2]
  · have h2 : (i - 1) % 2 = 0 := by omega
    have h3 : i - 1 + 1 = i := by omega
    simp [flipSpec, h, h2, h3]

example : flipShuffle [8, 9, 10, 11, 12, 13, 14, 15, 0, 1, 2, 3, 4, 5, 6, 7] #v[1#64, 2#64] =
    #v[2#64, 1#64] := by decide +kernel
example : flipRows.length = 20 ∧ flipRows512.length = 10 := by decide

/-! ## C48, C49: destriding -/

theorem destrideTwoPolyfill_eq {l : List Nat} (hw : w % 2 = 0)
    (hl : l = (List.range (w / 2)).map (2 * ·)) (a b : Vector α w) :
    ∃ x y : Vector α w, destrideTwoPolyfill l a b = ok (x, y) ∧
      IsResidue 2 0 (a.toList ++ b.toList) x.toList ∧
      IsResidue 2 1 (a.toList ++ b.toList) y.toList := by
  obtain ⟨h, rfl⟩ : ∃ h, w = 2 * h := ⟨w / 2, by omega⟩
  rw [Nat.mul_div_cancel_left _ (by omega)] at hl
  subst hl
  have key : ∀ k, k < 2 → ∃ x : Vector α (2 * h),
      newLanes (((List.range h).map (2 * ·)).map (fun n => Packed.extract a (n + k)) ++
        ((List.range h).map (2 * ·)).map (fun n => Packed.extract b (n + k))) = ok x ∧
      IsResidue 2 k (a.toList ++ b.toList) x.toList := by
    intro k hk
    obtain ⟨oa, ha, ea⟩ := pick_lanes a hk
    obtain ⟨ob, hb, eb⟩ := pick_lanes b hk
    have hr := ha.append hb (by omega) hk (by simp)
    have hlen : (oa ++ ob).length = 2 * h := by
      rw [hr.1]; simp; omega
    refine ⟨⟨(oa ++ ob).toArray, by simpa using hlen⟩, newLanes_eq _ ?_, by simpa using hr⟩
    rw [ea, eb, ← List.map_append]
    simp
  obtain ⟨x, ex, hx⟩ := key 0 (by omega)
  obtain ⟨y, ey, hy⟩ := key 1 (by omega)
  refine ⟨x, y, ?_, hx, hy⟩
  simp only [Nat.add_zero] at ex
  simp only [destrideTwoPolyfill, ex, ey, ok_bind]

/-- C48 for the polyfill: every type that uses it (all types on targets without
SSSE3/AVX2, all 16- and 32-bit types everywhere). -/
theorem C48_polyfill : ∀ r ∈ destrideRows ++ destrideRowsUnknown, ∀ a b : Vector α r.width,
    ∃ x y : Vector α r.width, destrideTwoPolyfill r.two a b = ok (x, y) ∧
      IsResidue 2 0 (a.toList ++ b.toList) x.toList ∧
      IsResidue 2 1 (a.toList ++ b.toList) y.toList := by
  have h : ∀ r ∈ destrideRows ++ destrideRowsUnknown,
      r.width % 2 = 0 ∧ r.two = (List.range (r.width / 2)).map (2 * ·) := by decide +kernel
  intro r hr a b
  exact destrideTwoPolyfill_eq (h r hr).1 (h r hr).2 a b

/-- The definition used by the model of `stride_zip` is the polyfill. -/
theorem destrideTwo_polyfill {l : List Nat} (hw : w % 2 = 0)
    (hl : l = (List.range (w / 2)).map (2 * ·)) (a b : Vector α w) :
    destrideTwoPolyfill l a b = ok (Packed.destrideTwo a b) := by
  obtain ⟨x, y, e, hx, hy⟩ := destrideTwoPolyfill_eq hw hl a b
  have hlen : (a.toList ++ b.toList).length / 2 = w := by simp; omega
  have : (x, y) = Packed.destrideTwo a b := by
    have conv : ∀ i (hi : i < 2 * w), (a.toList ++ b.toList)[i]? = some ((a ++ b)[i]'(by omega)) := by
      intro i hi
      rw [← Vector.toList_append, Vector.getElem?_toList, Vector.getElem?_eq_getElem (by omega)]
    unfold Packed.destrideTwo
    congr 1
    · apply Vector.ext
      intro i hi
      have := hx.2 i (by omega)
      rw [conv _ (by omega), Vector.getElem?_toList, Vector.getElem?_eq_getElem hi] at this
      simpa using this
    · apply Vector.ext
      intro i hi
      have := hy.2 i (by omega)
      rw [conv _ (by omega), Vector.getElem?_toList, Vector.getElem?_eq_getElem hi] at this
      simpa using this
  rw [e, this]

theorem isResidue_of_lanes {m r : Nat} {x : Vector α w} {l : List α} (hl : l.length / m = w)
    (h : ∀ i (hi : i < w), some x[i] = l[m * i + r]?) : IsResidue m r l x.toList := by
  refine ⟨by simp [hl], ?_⟩
  intro i hi
  rw [hl] at hi
  rw [Vector.getElem?_toList, Vector.getElem?_eq_getElem hi, h i hi]

theorem mergeHalves_eq (blend : Bool) (c : Cfg) (hn : n = 8 * s) (hs : 0 < s)
    (a b : Vector (BitVec n) w) : mergeHalves blend c a b = ok (select (fun i => i < w / 2) a b) := by
  cases blend
  · simp [mergeHalves, C35_halves_fallback]
  · simp [mergeHalves, C35_halves_blend hn hs]

/-- C48 for the SSSE3 version of `u8x16` and `i8x16`. -/
theorem C48_ssse3 (blend : Bool) (c : Cfg) (a b : Vector (BitVec 8) 16) :
    ∃ x y, destrideTwoSsse3 blend c a b = ok (x, y) ∧
      IsResidue 2 0 (a.toList ++ b.toList) x.toList ∧
      IsResidue 2 1 (a.toList ++ b.toList) y.toList := by
  simp only [destrideTwoSsse3, mergeHalves_eq blend c (s := 1) rfl (by omega), ok_bind]
  refine ⟨_, _, rfl, ?_, ?_⟩
  · apply isResidue_of_lanes (by simp)
    intro i hi
    have f1 : ∀ i, i < 8 → ([0, 2, 4, 6, 8, 10, 12, 14, 1, 3, 5, 7, 9, 11, 13, 15] : List Nat).getD i 0 = 2 * i := by
      decide
    have f2 : ∀ i, i < 16 → 8 ≤ i →
        ([1, 3, 5, 7, 9, 11, 13, 15, 0, 2, 4, 6, 8, 10, 12, 14] : List Nat).getD i 0 = 2 * i - 16 := by decide
    rw [select_getElem]
    by_cases h : i < 8
    · have hg := f1 i h
      have hix : i / 16 * 16 + ([0, 2, 4, 6, 8, 10, 12, 14, 1, 3, 5, 7, 9, 11, 13, 15] : List Nat).getD i 0 % 16 = 2 * i := by
        omega
      simp only [Nat.reduceDiv, h, decide_true, if_true]
      rw [shuffleEpi8_getElem a _ hi (by omega) (by omega)]
      simp only [hix, Nat.add_zero]
      rw [List.getElem?_append_left (by simp; omega), Vector.getElem?_toList,
        Vector.getElem?_eq_getElem (by omega)]
    · have hg := f2 i hi (by omega)
      have hix : i / 16 * 16 + ([1, 3, 5, 7, 9, 11, 13, 15, 0, 2, 4, 6, 8, 10, 12, 14] : List Nat).getD i 0 % 16 = 2 * i - 16 := by
        omega
      simp only [Nat.reduceDiv, h, decide_false, Bool.false_eq_true, if_false]
      rw [shuffleEpi8_getElem b _ hi (by omega) (by omega)]
      simp only [hix, Nat.add_zero]
      rw [List.getElem?_append_right (by simp; omega), Vector.getElem?_toList,
        Vector.length_toList, Vector.getElem?_eq_getElem (by omega)]
  · apply isResidue_of_lanes (by simp)
    intro i hi
    have f0 : ∀ i, i < 16 → ([8, 9, 10, 11, 12, 13, 14, 15, 0, 1, 2, 3, 4, 5, 6, 7] : List Nat).getD i 0 =
        if i < 8 then i + 8 else i - 8 := by decide
    have f1 : ∀ i, i < 16 → 8 ≤ i →
        ([0, 2, 4, 6, 8, 10, 12, 14, 1, 3, 5, 7, 9, 11, 13, 15] : List Nat).getD i 0 = 2 * i - 15 := by decide
    have f2 : ∀ i, i < 8 →
        ([1, 3, 5, 7, 9, 11, 13, 15, 0, 2, 4, 6, 8, 10, 12, 14] : List Nat).getD i 0 = 2 * i + 1 := by decide
    have hg0 := f0 i hi
    have hj : i / 16 * 16 + ([8, 9, 10, 11, 12, 13, 14, 15, 0, 1, 2, 3, 4, 5, 6, 7] : List Nat).getD i 0 % 16 =
        if i < 8 then i + 8 else i - 8 := by rw [hg0]; split <;> omega
    rw [shuffleEpi8_getElem _ _ hi (by rw [hg0]; split <;> omega) (by rw [hj]; split <;> omega)]
    simp only [hj]
    rw [select_getElem]
    by_cases h : i < 8
    · have hn8 : ¬ i + 8 < 8 := by omega
      have hg := f1 (i + 8) (by omega) (by omega)
      have hix : (i + 8) / 16 * 16 + ([0, 2, 4, 6, 8, 10, 12, 14, 1, 3, 5, 7, 9, 11, 13, 15] : List Nat).getD (i + 8) 0 % 16 = 2 * i + 1 := by
        omega
      simp only [h, if_true, Nat.reduceDiv, hn8, decide_false, Bool.false_eq_true, if_false]
      rw [shuffleEpi8_getElem a _ (by omega) (by omega) (by omega)]
      simp only [hix]
      rw [List.getElem?_append_left (by simp; omega), Vector.getElem?_toList,
        Vector.getElem?_eq_getElem (by omega)]
    · have h8 : i - 8 < 8 := by omega
      have hg := f2 (i - 8) (by omega)
      have hix : (i - 8) / 16 * 16 + ([1, 3, 5, 7, 9, 11, 13, 15, 0, 2, 4, 6, 8, 10, 12, 14] : List Nat).getD (i - 8) 0 % 16 = 2 * i + 1 - 16 := by
        omega
      simp only [h, if_false, Nat.reduceDiv, h8, decide_true, if_true]
      rw [shuffleEpi8_getElem b _ (by omega) (by omega) (by omega)]
      simp only [hix]
      rw [List.getElem?_append_right (by simp; omega), Vector.getElem?_toList,
        Vector.length_toList, Vector.getElem?_eq_getElem (by omega)]

/-- What the AVX2 version of `u8x32` and `i8x32` computes: the first result is
right, the second one is *not* the odd lanes but the even lanes of `other`
followed by the even lanes of `self`. -/
theorem C48_avx2 (a b : Vector (BitVec 8) 32) :
    IsResidue 2 0 (a.toList ++ b.toList) (destrideTwoAvx2 a b).1.toList ∧
    IsResidue 2 0 (b.toList ++ a.toList) (destrideTwoAvx2 a b).2.toList := by
  have hw8 : (8 : Nat) = 8 * 1 := rfl
  have fa : ∀ i, i < 16 → X86.field2 0xD8 (i / 8) * 8 + i % 8 < 32 ∧
      ([0, 2, 4, 6, 8, 10, 12, 14, 1, 3, 5, 7, 9, 11, 13, 15,
        0, 2, 4, 6, 8, 10, 12, 14, 1, 3, 5, 7, 9, 11, 13, 15] : List Nat).getD
        (X86.field2 0xD8 (i / 8) * 8 + i % 8) 0 < 128 ∧
      (X86.field2 0xD8 (i / 8) * 8 + i % 8) / 16 * 16 +
        ([0, 2, 4, 6, 8, 10, 12, 14, 1, 3, 5, 7, 9, 11, 13, 15,
          0, 2, 4, 6, 8, 10, 12, 14, 1, 3, 5, 7, 9, 11, 13, 15] : List Nat).getD
          (X86.field2 0xD8 (i / 8) * 8 + i % 8) 0 % 16 = 2 * i := by decide +kernel
  have fb : ∀ i, i < 32 → 16 ≤ i → X86.field2 0xD8 (i / 8) * 8 + i % 8 < 32 ∧
      ([1, 3, 5, 7, 9, 11, 13, 15, 0, 2, 4, 6, 8, 10, 12, 14,
        1, 3, 5, 7, 9, 11, 13, 15, 0, 2, 4, 6, 8, 10, 12, 14] : List Nat).getD
        (X86.field2 0xD8 (i / 8) * 8 + i % 8) 0 < 128 ∧
      (X86.field2 0xD8 (i / 8) * 8 + i % 8) / 16 * 16 +
        ([1, 3, 5, 7, 9, 11, 13, 15, 0, 2, 4, 6, 8, 10, 12, 14,
          1, 3, 5, 7, 9, 11, 13, 15, 0, 2, 4, 6, 8, 10, 12, 14] : List Nat).getD
          (X86.field2 0xD8 (i / 8) * 8 + i % 8) 0 % 16 = 2 * i - 32 := by decide +kernel
  have first : ∀ i (hi : i < 32), (destrideTwoAvx2 a b).1[i] =
      if h : i < 16 then a[2 * i] else b[2 * i - 32] := by
    intro i hi
    have e : ∀ x y : Vector (BitVec 8) 32, (mergeHalvesBlend x y)[i] =
        if i < 16 then x[i] else y[i] := by
      intro x y
      have e' := C35_halves_blend hw8 (by omega) x y
      simp only [e', select_getElem]
      simp
    simp only [destrideTwoAvx2]
    rw [e]
    by_cases h : i < 16
    · obtain ⟨h1, h2, h3⟩ := fa i h
      rw [if_pos h, dif_pos h]
      rw [permuteBytes_getElem _ _ hi, shuffleEpi8_getElem a _ h1 h2 (by omega)]
      simp only [h3]
    · obtain ⟨h1, h2, h3⟩ := fb i hi (by omega)
      rw [if_neg h, dif_neg h]
      rw [permuteBytes_getElem _ _ hi, shuffleEpi8_getElem b _ h1 h2 (by omega)]
      simp only [h3]
  have f4 : ∀ i, i < 32 → X86.field2 0x4E (i / 8) * 8 + i % 8 = if i < 16 then i + 16 else i - 16 := by
    decide +kernel
  have second : ∀ i (hi : i < 32), (destrideTwoAvx2 a b).2[i] =
      if h : i < 16 then b[2 * i] else a[2 * i - 32] := by
    intro i hi
    have e : (destrideTwoAvx2 a b).2 = (reinterpret (X86.permute4x64 (reinterpret
        (destrideTwoAvx2 a b).1) 0x4E) : Vector (BitVec 8) 32) := rfl
    simp only [e]
    rw [permuteBytes_getElem _ _ hi]
    simp only [f4 i hi]
    by_cases h : i < 16
    · simp only [h, if_true, dite_true]
      rw [first _ (by omega)]
      have : ¬ i + 16 < 16 := by omega
      have h2 : 2 * (i + 16) - 32 = 2 * i := by omega
      simp only [this, dite_false, h2]
    · simp only [h, if_false, dite_false]
      rw [first _ (by omega)]
      have : i - 16 < 16 := by omega
      have h2 : 2 * (i - 16) = 2 * i - 32 := by omega
      simp only [this, dite_true, h2]
  constructor
  · apply isResidue_of_lanes (by simp)
    intro i hi
    rw [first i hi]
    by_cases h : i < 16
    · rw [dif_pos h, List.getElem?_append_left (by simp; omega)]
      simp
    · rw [dif_neg h, List.getElem?_append_right (by simp; omega)]
      simp
  · apply isResidue_of_lanes (by simp)
    intro i hi
    rw [second i hi]
    by_cases h : i < 16
    · rw [dif_pos h, List.getElem?_append_left (by simp; omega)]
      simp
    · rw [dif_neg h, List.getElem?_append_right (by simp; omega)]
      simp

/-- C48 fails for `u8x32`/`i8x32` with AVX2: the second result is right only if the
odd lanes of each vector happen to equal the even lanes of the other one. -/
theorem C48_avx2_iff (a b : Vector (BitVec 8) 32) :
    IsResidue 2 1 (a.toList ++ b.toList) (destrideTwoAvx2 a b).2.toList ↔
      ∀ i (h : i < 16), a[2 * i + 1] = b[2 * i] ∧ b[2 * i + 1] = a[2 * i] := by
  have h0 := (C48_avx2 a b).2
  have hlen : ∀ x y : Vector (BitVec 8) 32, (x.toList ++ y.toList).length / 2 = 32 := by
    intro x y; simp
  have lo : ∀ (x y : Vector (BitVec 8) 32) j (hj : j < 32), (x.toList ++ y.toList)[j]? = some x[j] := by
    intro x y j hj
    rw [List.getElem?_append_left (by simpa using hj)]; simp [hj]
  have hi : ∀ (x y : Vector (BitVec 8) 32) j (hj : j < 32),
      (x.toList ++ y.toList)[32 + j]? = some y[j] := by
    intro x y j hj
    rw [List.getElem?_append_right (by simp)]; simp [hj]
  constructor
  · intro h i hi16
    have e1 := (h.2 i (by rw [hlen]; omega)).symm.trans (h0.2 i (by rw [hlen]; omega))
    have e2 := (h.2 (16 + i) (by rw [hlen]; omega)).symm.trans (h0.2 (16 + i) (by rw [hlen]; omega))
    rw [show 2 * (16 + i) + 1 = 32 + (2 * i + 1) by omega,
      show 2 * (16 + i) + 0 = 32 + 2 * i by omega, hi a b _ (by omega), hi b a _ (by omega)] at e2
    rw [lo a b _ (by omega), lo b a _ (by omega)] at e1
    exact ⟨by simpa using e1, by simpa using e2⟩
  · intro h
    refine ⟨by rw [h0.1, hlen, hlen], ?_⟩
    intro i hi32
    rw [hlen] at hi32
    rw [h0.2 i (by rw [hlen]; omega)]
    by_cases h16 : i < 16
    · rw [lo a b _ (by omega), lo b a _ (by omega), (h i h16).1]
      rfl
    · obtain ⟨j, rfl⟩ : ∃ j, i = 16 + j := ⟨i - 16, by omega⟩
      rw [show 2 * (16 + j) + 1 = 32 + (2 * j + 1) by omega,
        show 2 * (16 + j) + 0 = 32 + 2 * j by omega, hi a b _ (by omega), hi b a _ (by omega),
        (h j (by omega)).2]

/-- A concrete failure: lane 0 of the second result. -/
theorem C48_false : ∃ a b : Vector (BitVec 8) 32,
    ¬ IsResidue 2 1 (a.toList ++ b.toList) (destrideTwoAvx2 a b).2.toList := by
  refine ⟨Vector.ofFn fun i => BitVec.ofNat 8 i, Vector.ofFn fun _ => 0#8, ?_⟩
  intro h
  have h0 := h.2 0 (by simp)
  have h1 := (C48_avx2 (Vector.ofFn fun i => BitVec.ofNat 8 i) (Vector.ofFn fun _ => 0#8)).2.2 0 (by simp)
  rw [h1] at h0
  revert h0
  decide +kernel

/-- C48, what holds: the first result everywhere; the second result for the
polyfill and SSSE3 versions (`C48_polyfill`, `C48_ssse3`). Missing: the second
result of the AVX2 version (`C48_false`). -/
theorem C48_partial (a b : Vector (BitVec 8) 32) :
    IsResidue 2 0 (a.toList ++ b.toList) (destrideTwoAvx2 a b).1.toList := (C48_avx2 a b).1

example : destrideTwoPolyfill [0, 2] #v[1, 2, 3, 4] #v[5, 6, 7, 8] =
    ok (#v[1, 3, 5, 7], #v[2, 4, 6, 8]) := by decide

/-- C49 for one lane list. -/
theorem destrideFourPolyfill_eq {l : List Nat} (hw : w % 4 = 0)
    (hl : l = (List.range (w / 4)).map (4 * ·)) (a b c d : Vector α w) :
    ∃ v0 v1 v2 v3 : Vector α w, destrideFourPolyfill l a b c d = ok (v0, v1, v2, v3) ∧
      IsResidue 4 0 (a.toList ++ (b.toList ++ (c.toList ++ d.toList))) v0.toList ∧
      IsResidue 4 1 (a.toList ++ (b.toList ++ (c.toList ++ d.toList))) v1.toList ∧
      IsResidue 4 2 (a.toList ++ (b.toList ++ (c.toList ++ d.toList))) v2.toList ∧
      IsResidue 4 3 (a.toList ++ (b.toList ++ (c.toList ++ d.toList))) v3.toList := by
  obtain ⟨h, rfl⟩ : ∃ h, w = 4 * h := ⟨w / 4, by omega⟩
  rw [Nat.mul_div_cancel_left _ (by omega)] at hl
  subst hl
  have key : ∀ k, k < 4 → ∃ x : Vector α (4 * h),
      newLanes (((List.range h).map (4 * ·)).map (fun n => Packed.extract a (n + k)) ++
        (((List.range h).map (4 * ·)).map (fun n => Packed.extract b (n + k)) ++
        (((List.range h).map (4 * ·)).map (fun n => Packed.extract c (n + k)) ++
        ((List.range h).map (4 * ·)).map (fun n => Packed.extract d (n + k))))) = ok x ∧
      IsResidue 4 k (a.toList ++ (b.toList ++ (c.toList ++ d.toList))) x.toList := by
    intro k hk
    obtain ⟨oa, ha, ea⟩ := pick_lanes a hk
    obtain ⟨ob, hb, eb⟩ := pick_lanes b hk
    obtain ⟨oc, hc, ec⟩ := pick_lanes c hk
    obtain ⟨od, hd, ed⟩ := pick_lanes d hk
    have hr := ha.append (hb.append (hc.append hd (by omega) hk (by simp)) (by omega) hk (by simp))
      (by omega) hk (by simp)
    have hlen : (oa ++ (ob ++ (oc ++ od))).length = 4 * h := by
      rw [hr.1]; simp; omega
    refine ⟨⟨(oa ++ (ob ++ (oc ++ od))).toArray, by simpa using hlen⟩, newLanes_eq _ ?_, by simpa using hr⟩
    rw [ea, eb, ec, ed, ← List.map_append, ← List.map_append, ← List.map_append]
    simp
  obtain ⟨v0, e0, h0⟩ := key 0 (by omega)
  obtain ⟨v1, e1, h1⟩ := key 1 (by omega)
  obtain ⟨v2, e2, h2⟩ := key 2 (by omega)
  obtain ⟨v3, e3, h3⟩ := key 3 (by omega)
  refine ⟨v0, v1, v2, v3, ?_, h0, h1, h2, h3⟩
  simp only [destrideFourPolyfill, e0, e1, e2, e3, ok_bind]

/-- C49: `destride_four` separates the residue classes modulo 4, for every type and
target, and equals two rounds of `destride_two` (polyfill). -/
theorem C49 : ∀ r ∈ destrideRows ++ destrideRowsUnknown, ∀ a b c d : Vector α r.width,
    ∃ v0 v1 v2 v3 : Vector α r.width, destrideFourPolyfill r.four a b c d = ok (v0, v1, v2, v3) ∧
      IsResidue 4 0 (a.toList ++ (b.toList ++ (c.toList ++ d.toList))) v0.toList ∧
      IsResidue 4 1 (a.toList ++ (b.toList ++ (c.toList ++ d.toList))) v1.toList ∧
      IsResidue 4 2 (a.toList ++ (b.toList ++ (c.toList ++ d.toList))) v2.toList ∧
      IsResidue 4 3 (a.toList ++ (b.toList ++ (c.toList ++ d.toList))) v3.toList ∧
      ∃ e1 o1 e2 o2, destrideTwoPolyfill r.two a b = ok (e1, o1) ∧
        destrideTwoPolyfill r.two c d = ok (e2, o2) ∧
        destrideTwoPolyfill r.two e1 e2 = ok (v0, v2) ∧
        destrideTwoPolyfill r.two o1 o2 = ok (v1, v3) := by
  have h : ∀ r ∈ destrideRows ++ destrideRowsUnknown,
      r.width % 4 = 0 ∧ r.four = (List.range (r.width / 4)).map (4 * ·) ∧
      r.two = (List.range (r.width / 2)).map (2 * ·) := by decide +kernel
  intro r hr a b c d
  obtain ⟨hw, hf, ht⟩ := h r hr
  have hw2 : r.width % 2 = 0 := by omega
  obtain ⟨v0, v1, v2, v3, e, h0, h1, h2, h3⟩ := destrideFourPolyfill_eq hw hf a b c d
  refine ⟨v0, v1, v2, v3, e, h0, h1, h2, h3, ?_⟩
  obtain ⟨e1, o1, q1, he1, ho1⟩ := destrideTwoPolyfill_eq hw2 ht a b
  obtain ⟨e2, o2, q2, he2, ho2⟩ := destrideTwoPolyfill_eq hw2 ht c d
  obtain ⟨x0, x2, q3, hx0, hx2⟩ := destrideTwoPolyfill_eq hw2 ht e1 e2
  obtain ⟨x1, x3, q4, hx1, hx3⟩ := destrideTwoPolyfill_eq hw2 ht o1 o2
  have hmod : (a.toList ++ b.toList).length % 2 = 0 := by simp; omega
  have hE := he1.append he2 (by omega) (by omega) hmod
  have hO := ho1.append ho2 (by omega) (by omega) hmod
  rw [List.append_assoc] at hE hO
  have fin : ∀ {x y : Vector α r.width}, x.toList = y.toList → x = y := fun h => Vector.toList_inj.mp h
  have i0 := fin ((hE.comp hx0 (by omega)).unique h0)
  have i2 := fin ((hE.comp hx2 (by omega)).unique h2)
  have i1 := fin ((hO.comp hx1 (by omega)).unique h1)
  have i3 := fin ((hO.comp hx3 (by omega)).unique h3)
  subst i0 i1 i2 i3
  exact ⟨e1, o1, e2, o2, q1, q2, q3, q4⟩

example : destrideFourPolyfill [0] #v[0, 1, 2, 3] #v[4, 5, 6, 7] #v[8, 9, 10, 11] #v[12, 13, 14, 15] =
    ok (#v[0, 4, 8, 12], #v[1, 5, 9, 13], #v[2, 6, 10, 14], #v[3, 7, 11, 15]) := by decide
example : destrideRows.length = 12 ∧ destrideRowsUnknown.length = 12 := by decide

end Faster
