import Verif.Props.Sum
/-
Population counts (C43).
-/
namespace Faster
open Res

variable {n w w' : Nat}

/-- Specification: number of zero bits of a vector, lane by lane. -/
def vecZeros (v : Vector (BitVec n) w) : Nat :=
  (v.toList.map fun x => (List.range n).countP fun k => !x.getLsbD k).sum

/-- One bits and zero bits together are all bits. -/
theorem ones_add_zeros (v : Vector (BitVec n) w) : vecOnes v + vecZeros v = w * n := by
  have key : ∀ l : List (BitVec n), (l.map onesOf).sum +
      (l.map fun x => (List.range n).countP fun k => !x.getLsbD k).sum = l.length * n := by
    intro l
    induction l with
    | nil => simp
    | cons x l ih =>
      have := List.length_eq_countP_add_countP (fun k => x.getLsbD k) (l := List.range n)
      have h2 : (List.range n).countP (fun k => !x.getLsbD k) =
          (List.range n).countP (fun k => decide ¬(x.getLsbD k = true)) := by
        apply List.countP_congr
        intro k _
        simp
      simp only [List.map_cons, List.sum_cons, List.length_cons, Nat.succ_mul, onesOf] at ih ⊢
      rw [h2]
      rw [List.length_range] at this
      omega
  have := key v.toList
  simpa [vecOnes, vecZeros] using this

theorem vecOnes_le (v : Vector (BitVec n) w) : vecOnes v ≤ w * n := by
  have := ones_add_zeros v
  omega

/-- The nibble table counts the bits of every byte. -/
theorem popTable_byte : ∀ b : BitVec 8,
    ((BitVec.ofNat 8 (popTable.getD ((b >>> 4).toNat % 16) 0) +
      BitVec.ofNat 8 (popTable.getD ((b &&& 0x0F#8).toNat % 16) 0)).toNat = onesOf b) ∧
    (b >>> 4).msb = false ∧ (b &&& 0x0F#8).msb = false := by
  decide +kernel

theorem lane_popLookup {i t : Nat} (hw : w % 16 = 0) (hi : i < w) :
    X86.lane (popLookup : Vector (BitVec 8) w) (i / 16 * 16 + t % 16) =
      BitVec.ofNat 8 (popTable.getD (t % 16) 0) := by
  have h : i / 16 * 16 + t % 16 < w := by omega
  simp [X86.lane, popLookup, h, Nat.add_mod]

/-- The byte vector summed by `popcntShuffle` holds the bit counts. -/
theorem counts_total (hw : w % 16 = 0) (v : Vector (BitVec 8) w) :
    total false (X86.lanewise (· + ·) (X86.shuffleEpi8 popLookup (v.map fun b : BitVec 8 => b >>> 4))
      (X86.shuffleEpi8 popLookup (v.map (· &&& 0x0F#8)))) = (vecOnes v : Int) := by
  unfold total vecOnes
  rw [natSum_cast]
  congr 1
  apply List.ext_getElem
  · simp
  · intro i h1 h2
    have hi : i < w := by simpa using h1
    have hb := popTable_byte v[i]
    simp only [List.getElem_map, Vector.getElem_toList, X86.lanewise, X86.shuffleEpi8,
      Vector.getElem_ofFn, Fin.getElem_fin, Vector.getElem_map, hb.2.1, hb.2.2, if_false,
      Bool.false_eq_true, lane_popLookup hw hi, num]
    exact congrArg Int.ofNat hb.1

/-- Byte vectors of 128 or 256 bits and the words summed for them. -/
inductive PopWidth : Nat → List Nat → Prop
  | sse : PopWidth 16 [0, 4]
  | avx : PopWidth 32 [0, 4, 8, 12]

theorem popWidth_sum {idx : List Nat} (hp : PopWidth w idx) (c : Cfg) (v : Vector (BitVec 8) w) :
    ∃ r, sumUpcastU8 c idx v = ok r ∧ r.toInt = total false v := by
  cases hp
  · exact C42_u8x16 c v
  · exact C42_u8x32 c v

/-- C43: the SSSE3 and AVX2 versions of `count_ones` count the one bits of any
vector of any lane type; no build panics. -/
theorem C43_optimized {c : Cfg} {idx : List Nat} (hp : PopWidth w idx) (hu : 256 < c.usize)
    (hsize : w' * n = w * 8) (v : Vector (BitVec n) w') :
    popcntShuffle c idx (reinterpret v : Vector (BitVec 8) w) = ok (vecOnes v) := by
  have hv := vecOnes_reinterpret (n := 8) (w' := w) v hsize.symm
  have hw : w % 16 = 0 ∧ w ≤ 32 := by cases hp <;> omega
  have ht := counts_total hw.1 (reinterpret v : Vector (BitVec 8) w)
  have hle := vecOnes_le v
  rw [hv] at ht
  obtain ⟨r, h1, h2⟩ := popWidth_sum hp c
    (X86.lanewise (· + ·) (X86.shuffleEpi8 popLookup ((reinterpret v : Vector (BitVec 8) w).map
        fun b : BitVec 8 => b >>> 4))
      (X86.shuffleEpi8 popLookup ((reinterpret v : Vector (BitVec 8) w).map (· &&& 0x0F#8))))
  unfold popcntShuffle
  simp only [h1, Res.ok_bind]
  have hr : r.toNat = vecOnes v := by
    have := BitVec.toInt_eq_toNat_cond r
    have := r.isLt
    split at * <;> omega
  rw [hr, Nat.mod_eq_of_lt (by omega)]

theorem foldlM_uadd (c : Cfg) (f : BitVec n → Nat) (l : List (BitVec n)) : ∀ acc,
    acc + (l.map f).sum < c.usize →
    l.foldlM (fun acc s => uadd c acc (f s % c.usize)) acc = ok (acc + (l.map f).sum) := by
  induction l with
  | nil => intro acc _; simp
  | cons x l ih =>
    intro acc h
    simp only [List.map_cons, List.sum_cons] at h ⊢
    rw [List.foldlM_cons, Nat.mod_eq_of_lt (by omega), uadd_ok (by omega)]
    simp only [Res.ok_bind]
    rw [ih _ (by omega), Nat.add_assoc]

/-- C43: the fallback versions (all types of 512 bits, and all others without
SSSE3/AVX2) count the one bits of any vector of any lane type. -/
theorem C43_fallback {c : Cfg} (hw : w % 8 = 0) (hu : w * 8 < c.usize) (hsize : w' * n = w * 8)
    (v : Vector (BitVec n) w') :
    popcntFallback c (reinterpret v : Vector (BitVec 8) w) = ok (vecOnes v) := by
  have hle := vecOnes_le v
  have hv := vecOnes_reinterpret (n := 8) (w' := w) v hsize.symm
  have hv' := vecOnes_reinterpret (n := 64) (w' := w / 8) (reinterpret v : Vector (BitVec 8) w) (by omega)
  rw [hv] at hv'
  unfold popcntFallback
  rw [C53_scalar_reduce, foldlM_uadd c countOnes]
  · rw [← hv', Nat.zero_add]
    rfl
  · have : ((reinterpret (reinterpret v : Vector (BitVec 8) w) :
        Vector (BitVec 64) (w / 8)).toList.map countOnes).sum = vecOnes v := hv'
    omega

/-- C43: `count_zeroes` is the number of zero bits, given that `count_ones` is
right. -/
theorem C43_count_zeroes {c : Cfg} {size : Nat} (hn : n = size * 8) (hu : w * size * 8 < c.usize)
    (v : Vector (BitVec n) w) {ones : Res Nat} (h : ones = ok (vecOnes v)) :
    countZeroes c w size ones = ok (vecZeros v) := by
  have hs := ones_add_zeros v
  have e : w * n = w * size * 8 := by rw [hn, Nat.mul_assoc]
  unfold countZeroes
  rw [umul_ok (by omega)]
  simp only [Res.ok_bind]
  rw [umul_ok (by omega)]
  simp only [Res.ok_bind, h]
  rw [usub_ok (by omega)]
  congr 1
  omega

/-- C43: the two counts add up to the number of bits. -/
theorem C43_sum (v : Vector (BitVec n) w) : vecOnes v + vecZeros v = w * n := ones_add_zeros v

/-- Non-vacuity: the three versions on 32-bit lanes. -/
example : popcntShuffle debug64 [0, 4]
      (reinterpret #v[0xFFFFFFFF#32, 1, 2, 0x80000001] : Vector (BitVec 8) 16) = ok 36 ∧
    popcntFallback debug64
      (reinterpret #v[0xFFFFFFFF#32, 1, 2, 0x80000001] : Vector (BitVec 8) 16) = ok 36 ∧
    vecOnes #v[0xFFFFFFFF#32, 1, 2, 0x80000001] = 36 ∧
    countZeroes debug64 4 4 (ok 36) = ok 92 := by decide +kernel

end Faster
