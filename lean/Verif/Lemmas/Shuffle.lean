import Verif.Intrin.Destride
import Verif.Lemmas.Merge
/-
Lemmas about byte shuffles and 64-bit permutations.
-/
namespace Faster
open Res

variable {α : Type} {n w s : Nat}

theorem lane_eq (v : Vector (BitVec n) w) {i : Nat} (h : i < w) : X86.lane v i = v[i] := by
  simp [X86.lane, h]

theorem extract_ok {v : Vector α w} {i : Nat} (h : i < w) : Packed.extract v i = ok v[i] := by
  simp [Packed.extract, h]

/-- Byte shuffle with control bytes below 128. -/
theorem shuffleEpi8_getElem (a : Vector (BitVec 8) w) (ctl : List Nat) {i : Nat} (hi : i < w)
    (hc : ctl.getD i 0 < 128) (hj : i / 16 * 16 + ctl.getD i 0 % 16 < w) :
    (X86.shuffleEpi8 a (ctlVec ctl))[i] = a[i / 16 * 16 + ctl.getD i 0 % 16] := by
  simp only [X86.shuffleEpi8, ctlVec, Vector.getElem_ofFn, Fin.getElem_fin]
  have hmsb : (BitVec.ofNat 8 (ctl.getD i 0)).msb = false := by
    rw [BitVec.msb_eq_false_iff_two_mul_lt, BitVec.toNat_ofNat]
    omega
  have hnat : (BitVec.ofNat 8 (ctl.getD i 0)).toNat = ctl.getD i 0 := by
    rw [BitVec.toNat_ofNat]
    omega
  rw [hmsb, hnat]
  simp only [Bool.false_eq_true, if_false]
  exact lane_eq a hj

/-- A byte shuffle of lanes of `s` bytes, bit by bit; `g` is the byte number taken
for each byte, always in the same 128-bit half. -/
theorem shuffleLanes_getLsbD (ctl : List Nat) (v : Vector (BitVec n) w) (hn : n = 8 * s)
    (g : Nat → Nat) (hg : ∀ p, p < w * s → ctl.getD p 0 = g p ∧ g p < 128 ∧ g p / 16 = p / 16 ∧
      g p < w * s) {i k : Nat} (hi : i < w) (hk : k < n) :
    ((shuffleLanes ctl v)[i]).getLsbD k = bit v (g (i * s + k / 8) * 8 + k % 8) := by
  have hsn : n / 8 = s := by omega
  have hin : i * n = 8 * (i * s) := by rw [hn]; ac_rfl
  have hp : i * s + k / 8 < w * s := by
    have := Nat.mul_le_mul_right s (Nat.succ_le_of_lt hi)
    rw [Nat.succ_mul] at this
    omega
  obtain ⟨h1, h2, h3, h4⟩ := hg _ hp
  have hq : i * n + k = (i * s + k / 8) * 8 + k % 8 := by omega
  unfold shuffleLanes
  rw [getLsbD_reinterpret _ _ hk, hq, bit_lane _ (by rw [hsn]; exact hp) (by omega)]
  have hgg : (i * s + k / 8) / 16 * 16 + ctl.getD (i * s + k / 8) 0 % 16 = g (i * s + k / 8) := by
    rw [h1]; omega
  rw [shuffleEpi8_getElem _ _ _ (by omega) (by rw [hgg, hsn]; exact h4)]
  simp only [hgg]
  rw [getLsbD_reinterpret _ _ (by omega)]

theorem field2_lt (imm j : Nat) : X86.field2 imm j < 4 := Nat.mod_lt _ (by omega)

/-- A permutation of 64-bit lanes, seen as bytes. -/
theorem permuteBytes_getElem (v : Vector (BitVec 8) 32) (imm : Nat) {i : Nat} (hi : i < 32) :
    (reinterpret (X86.permute4x64 (reinterpret v) imm) : Vector (BitVec 8) 32)[i] =
      v[X86.field2 imm (i / 8) * 8 + i % 8]'(by have := field2_lt imm (i / 8); omega) := by
  have hf := field2_lt imm (i / 8)
  apply reinterpret_copy (m := 64) (r := 8) (W := 4) (q := X86.field2 imm (i / 8)) _ v rfl (by omega) hi
    (by omega) hf (by omega)
  simp only [X86.permute4x64, Vector.getElem_ofFn]
  rw [lane_eq _ hf]

theorem pairs_range (k : Nat) : pairs (List.range (2 * k)) = (List.range k).map fun i => (2 * i, 2 * i + 1) := by
  have gen : ∀ (k o : Nat), pairs (List.range' o (2 * k)) =
      (List.range k).map fun i => (o + 2 * i, o + 2 * i + 1) := by
    intro k
    induction k with
    | zero => intro o; rfl
    | succ k ih =>
      intro o
      rw [show 2 * (k + 1) = 2 * k + 1 + 1 by omega, List.range'_succ, List.range'_succ, pairs, ih,
        List.range_succ_eq_map, List.map_cons, List.map_map]
      congr 1
      apply List.map_congr_left
      intro i _
      simp; omega
  have := gen k 0
  rw [← List.range_eq_range'] at this
  simpa using this

/-! ### Residue classes -/

/-- Specification: `out` holds the elements of `l` whose index is congruent to `r`
modulo `m`, in order. -/
def IsResidue (m r : Nat) (l out : List α) : Prop :=
  out.length = l.length / m ∧ ∀ i, i < l.length / m → out[i]? = l[m * i + r]?

theorem IsResidue.unique {m r : Nat} {l o o' : List α} (h : IsResidue m r l o)
    (h' : IsResidue m r l o') : o = o' := by
  apply List.ext_getElem?
  intro i
  by_cases hi : i < l.length / m
  · rw [h.2 i hi, h'.2 i hi]
  · rw [List.getElem?_eq_none (by rw [h.1]; omega), List.getElem?_eq_none (by rw [h'.1]; omega)]

theorem IsResidue.append {m r : Nat} {l l' o o' : List α} (h : IsResidue m r l o)
    (h' : IsResidue m r l' o') (hm : 0 < m) (hr : r < m) (hl : l.length % m = 0) :
    IsResidue m r (l ++ l') (o ++ o') := by
  have hdm := Nat.div_add_mod l.length m
  have hlen : (l ++ l').length / m = l.length / m + l'.length / m := by
    rw [List.length_append, ← hdm, hl, Nat.add_zero, Nat.mul_add_div hm,
      Nat.mul_div_cancel_left _ hm]
  refine ⟨by rw [hlen, List.length_append, h.1, h'.1], ?_⟩
  intro i hi
  rw [hlen] at hi
  by_cases h1 : i < l.length / m
  · have h2 : m * i + r < l.length := by
      have := Nat.mul_le_mul_left m (Nat.succ_le_of_lt h1)
      rw [Nat.mul_succ] at this
      omega
    rw [List.getElem?_append_left (by rw [h.1]; exact h1), List.getElem?_append_left h2, h.2 i h1]
  · have h2 : l.length ≤ m * i + r := by
      have := Nat.mul_le_mul_left m (Nat.le_of_not_lt h1)
      omega
    have h3 : m * i + r - l.length = m * (i - l.length / m) + r := by
      have hle := Nat.mul_le_mul_left m (Nat.le_of_not_lt h1)
      rw [Nat.mul_sub]; omega
    rw [List.getElem?_append_right (by rw [h.1]; omega), List.getElem?_append_right h2, h.1, h3,
      h'.2 _ (by omega)]

theorem IsResidue.comp {m m' r r' : Nat} {l o o' : List α} (h : IsResidue m r l o)
    (h' : IsResidue m' r' o o') (hr' : r' < m') :
    IsResidue (m * m') (m * r' + r) l o' := by
  have hlen : l.length / (m * m') = o.length / m' := by
    rw [h.1, Nat.div_div_eq_div_mul]
  refine ⟨by rw [h'.1, hlen], ?_⟩
  intro i hi
  rw [hlen] at hi
  have h1 : m' * i + r' < l.length / m := by
    rw [← h.1]
    have h2 := Nat.mul_le_mul_left m' (Nat.succ_le_of_lt hi)
    rw [Nat.mul_succ] at h2
    have := Nat.mul_div_le o.length m'
    omega
  rw [h'.2 i hi, h.2 _ h1]
  congr 1
  rw [Nat.mul_add, Nat.mul_assoc, Nat.add_assoc]

/-- The lanes of one vector picked by a polyfill lane list. -/
theorem pick_lanes {m k h : Nat} (v : Vector α (m * h)) (hk : k < m) :
    ∃ o : List α, IsResidue m k v.toList o ∧
      ((List.range h).map (m * ·)).map (fun i => Packed.extract v (i + k)) = o.map ok := by
  have hlt : ∀ i, i < h → m * i + k < m * h := by
    intro i hi
    have := Nat.mul_le_mul_left m (Nat.succ_le_of_lt hi)
    rw [Nat.mul_succ] at this
    omega
  refine ⟨(List.finRange h).map fun i : Fin h => v[m * i.val + k]'(hlt i.val i.2), ⟨?_, ?_⟩, ?_⟩
  · simp; rw [Nat.mul_div_cancel_left _ (by omega)]
  · intro i hi
    rw [Vector.length_toList, Nat.mul_div_cancel_left _ (by omega)] at hi
    have := hlt i hi
    simp [hi, this]
  · apply List.ext_getElem
    · simp
    · intro i h1 h2
      have hi : i < h := by simpa using h1
      simp [extract_ok (hlt i hi)]

end Faster
