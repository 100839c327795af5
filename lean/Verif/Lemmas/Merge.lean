import Verif.Intrin.Merge
import Verif.Lemmas.Bits
import Verif.Lemmas.Basic
/-
Lemmas about vector construction, blending and the partition masks.
-/
namespace Faster
open Res

variable {α β : Type} {n w s : Nat}

theorem mapM_id_ok (l : List α) : (l.map ok).mapM (m := Res) id = ok l := by
  induction l with
  | nil => rfl
  | cons x l ih => simp [List.mapM_cons, ih]

/-- Building a vector from lanes that all evaluate normally. -/
theorem newLanes_eq {xs : List (Res α)} (v : Vector α w) (h : xs = v.toList.map ok) :
    newLanes xs = ok v := by
  subst h
  unfold newLanes
  rw [mapM_id_ok]
  simp [Vector.toList]

/-- Building a vector from lanes given by index. -/
theorem newLanes_getElem {xs : List (Res α)} (v : Vector α w) (hlen : xs.length = w)
    (h : ∀ i (hi : i < w), xs[i]'(by omega) = ok v[i]) : newLanes xs = ok v := by
  apply newLanes_eq
  apply List.ext_getElem
  · simp [hlen]
  · intro i h1 h2
    rw [h i (by omega)]
    simp

theorem flatMap_pair (k : Nat) (f g : Nat → β) :
    (List.range k).flatMap (fun i => [f i, g i]) =
      (List.range (2 * k)).map fun j => if j % 2 = 0 then f (j / 2) else g (j / 2) := by
  induction k with
  | zero => rfl
  | succ k ih =>
    rw [List.range_succ, List.flatMap_append, ih, show 2 * (k + 1) = 2 * k + 1 + 1 by omega,
      List.range_succ, List.range_succ]
    have h1 : (2 * k + 1) / 2 = k := by omega
    simp [h1]

/-- A blend of whole lanes, for masks whose lanes are all zeros or all ones. -/
theorem blendLanes_getElem (a b mask : Vector (BitVec n) w) (hn : n = 8 * s) {i : Nat} (hi : i < w)
    (hm : mask[i] = 0#n ∨ mask[i] = BitVec.allOnes n) :
    (blendLanes a b mask)[i] = if mask[i] = 0#n then a[i] else b[i] := by
  apply BitVec.eq_of_getLsbD_eq
  intro k hk
  have hs : n / 8 = s := by omega
  have hp : i * n + k < w * n := by
    have := Nat.mul_le_mul_right n (Nat.succ_le_of_lt hi)
    rw [Nat.succ_mul] at this
    omega
  have hwn : w * (n / 8) * 8 = w * n := by rw [hs, hn, Nat.mul_assoc, Nat.mul_comm s 8]
  have hp8 : i * n + k < w * (n / 8) * 8 := by omega
  have hq : (i * n + k) / 8 < w * (n / 8) := div_lt_of_lt_mul hp8
  have hbyte : ∀ v : Vector (BitVec n) w,
      ((reinterpret v : Vector (BitVec 8) (w * (n / 8)))[(i * n + k) / 8]'hq).getLsbD
        ((i * n + k) % 8) = v[i].getLsbD k := by
    intro v
    rw [getLsbD_reinterpret _ _ (Nat.mod_lt _ (by omega)), Nat.div_add_mod', bit_lane v hi hk]
  have htop : ∀ v : Vector (BitVec n) w,
      ((reinterpret v : Vector (BitVec 8) (w * (n / 8)))[(i * n + k) / 8]'hq).msb =
        v[i].getLsbD (k / 8 * 8 + 7) := by
    intro v
    rw [BitVec.msb_eq_getLsbD_last, getLsbD_reinterpret _ _ (by omega)]
    have : (i * n + k) / 8 * 8 + (8 - 1) = i * n + (k / 8 * 8 + 7) := by
      have : i * n = 8 * (i * s) := by rw [hn]; ac_rfl
      omega
    rw [this, bit_lane v hi (by omega)]
  unfold blendLanes
  rw [getLsbD_reinterpret _ _ hk, bit_eq _ hp8]
  simp only [X86.blendvEpi8, Vector.getElem_ofFn, Fin.getElem_fin]
  rw [htop]
  have hk7 : k / 8 * 8 + 7 < n := by omega
  rcases hm with hm | hm
  · simp [hm, hbyte]
  · have : BitVec.allOnes n ≠ 0#n := by
      intro h0
      have := congrArg (fun x => x.getLsbD k) h0
      simp [hk] at this
    simp [hm, hbyte, hk7, this]

theorem allOnes_ne_zero (h : 0 < n) : BitVec.allOnes n ≠ 0#n := by
  intro h0
  have := congrArg (fun x => x.getLsbD 0) h0
  simp at this
  omega

theorem bit_partMask {p : Nat} (hp : p < 1024) : bit partMask p = decide (512 ≤ p) := by
  rw [bit_eq _ (by omega)]
  simp only [partMask, Vector.getElem_ofFn]
  by_cases h : p / 8 < 64
  · rw [if_pos h]
    simp
    omega
  · rw [if_neg h]
    have h7 : p % 8 < 8 := Nat.mod_lt _ (by omega)
    have h255 : (255#8) = BitVec.allOnes 8 := by decide
    rw [h255, BitVec.getLsbD_allOnes]
    simp [h7]
    omega

/-- The mask table seen as lanes of `s` bytes. -/
theorem partMask_lane (hn : n = 8 * s) (hd : 64 % s = 0) {j : Nat}
    (hj : j < 128 / (n / 8)) :
    (reinterpret partMask : Vector (BitVec n) (128 / (n / 8)))[j] =
      if j < 64 / s then 0#n else BitVec.allOnes n := by
  have hsn : n / 8 = s := by omega
  have hq : 64 / s * n = 512 := by
    have := Nat.div_add_mod 64 s
    rw [hd, Nat.add_zero, Nat.mul_comm] at this
    rw [hn, Nat.mul_comm 8 s, ← Nat.mul_assoc, this]
  have hq2 : 128 / s * n ≤ 1024 := by
    have := Nat.div_mul_le_self 128 s
    rw [hn, Nat.mul_comm 8 s, ← Nat.mul_assoc]
    omega
  apply BitVec.eq_of_getLsbD_eq
  intro k hk
  have hlt : j * n + k < 1024 := by
    have := Nat.mul_le_mul_right n (Nat.succ_le_of_lt hj)
    rw [Nat.succ_mul, hsn] at this
    omega
  rw [getLsbD_reinterpret _ _ hk, bit_partMask hlt]
  by_cases h : j < 64 / s
  · have := Nat.mul_le_mul_right n (Nat.succ_le_of_lt h)
    rw [Nat.succ_mul, hq] at this
    simp [h]
    omega
  · have := Nat.mul_le_mul_right n (Nat.le_of_not_lt h)
    rw [hq] at this
    simp [h, hk]
    omega

/-- Loading a mask inside the table. -/
theorem loadPartMask_ok (hn : n = 8 * s) (hd : 64 % s = 0) {idx : Nat}
    (h : idx + w ≤ 128 / s) :
    (loadPartMask idx : Res (Vector (BitVec n) w)) =
      ok (Vector.ofFn fun i => if idx + i.val < 64 / s then 0#n else BitVec.allOnes n) := by
  have hsn : n / 8 = s := by omega
  have hle : 128 / s ≤ 128 := Nat.div_le_self _ _
  have h1 : (decide (idx ≤ 128)) = true := by simp; omega
  have h2 : (decide (w ≤ 128 - idx)) = true := by simp; omega
  simp only [loadPartMask, h1, h2, assert_true, ok_bind]
  unfold Packed.fromSliceUnchecked
  have h3 : w ≤ ((reinterpret partMask : Vector (BitVec n) (128 / (n / 8))).toList.drop idx).length := by
    simp [hsn]; omega
  rw [dif_pos h3]
  congr 1
  apply Vector.ext
  intro i hi
  have hj : idx + i < 128 / (n / 8) := by rw [hsn]; omega
  simp only [Vector.getElem_mk, List.getElem_toArray, List.getElem_take, List.getElem_drop,
    Vector.getElem_toList, Vector.getElem_ofFn]
  exact partMask_lane hn hd hj

/-- Loading a mask that starts or ends beyond 128 lanes panics. -/
theorem loadPartMask_panic {idx : Nat} (h : 128 < idx + w) :
    (loadPartMask idx : Res (Vector (BitVec n) w)) = panic := by
  unfold loadPartMask
  by_cases h1 : idx ≤ 128
  · have h2 : ¬ w ≤ 128 - idx := by omega
    simp [h1, h2]
  · simp [h1]

/-- Loading a mask beyond the table but below 128 lanes is out of bounds. -/
theorem loadPartMask_ub (hn : n = 8 * s) {idx : Nat}
    (h : 128 / s < idx + w) (h' : idx + w ≤ 128) (hw : 0 < w) :
    (loadPartMask idx : Res (Vector (BitVec n) w)) = ub := by
  have hsn : n / 8 = s := by omega
  have h1 : (decide (idx ≤ 128)) = true := by simp; omega
  have h2 : (decide (w ≤ 128 - idx)) = true := by simp; omega
  simp only [loadPartMask, h1, h2, assert_true, ok_bind]
  unfold Packed.fromSliceUnchecked
  rw [dif_neg]
  simp [hsn]
  omega

theorem size_bound (hs : 0 < s) (hd : 64 % s = 0) (hws : w * s ≤ 64) :
    w ≤ 64 / s ∧ 128 / s = 2 * (64 / s) ∧ 64 / s * s = 64 := by
  have h := Nat.div_add_mod 64 s
  rw [hd, Nat.add_zero, Nat.mul_comm] at h
  refine ⟨(Nat.le_div_iff_mul_le hs).2 hws, ?_, h⟩
  rw [show 128 = s * (2 * (64 / s)) by rw [Nat.mul_comm, Nat.mul_assoc, h]]
  exact Nat.mul_div_cancel_left _ hs

/-- `partition_mask` for offsets that fit. -/
theorem partitionMask_ok (c : Cfg) (hn : n = 8 * s) (hs : 0 < s) (hd : 64 % s = 0)
    (hws : w * s ≤ 64) (hc : 64 < c.usize) {off : Nat} (ho : off ≤ w) :
    (partitionMask c off : Res (Vector (BitVec n) w)) =
      ok (Vector.ofFn fun i => if i.val < off then 0#n else BitVec.allOnes n) := by
  have hsn : n / 8 = s := by omega
  obtain ⟨hw, h128, h64⟩ := size_bound hs hd hws
  have hos : off * s ≤ 64 := Nat.le_trans (Nat.mul_le_mul_right s ho) hws
  have hl := loadPartMask_ok (w := w) hn hd (idx := 64 / s - off) (by omega)
  have hf : (fun i : Fin w => if 64 / s - off + i.val < 64 / s then 0#n else BitVec.allOnes n) =
      fun i : Fin w => if i.val < off then 0#n else BitVec.allOnes n := by
    funext i
    have : (64 / s - off + i.val < 64 / s) ↔ i.val < off := by omega
    simp only [this]
  rw [hf] at hl
  unfold partitionMask
  rw [debugAssert_ok ho, ok_bind, hsn, umul_ok (by omega), usub_ok (by omega)]
  cases c.debug <;> simp [hos, hl]

/-- `partition_mask` in release builds for offsets beyond the width. -/
theorem partitionMask_release (c : Cfg) (hdbg : c.debug = false) (hn : n = 8 * s)
    (off : Nat) :
    (partitionMask c off : Res (Vector (BitVec n) w)) =
      (usub c (64 / s) off >>= fun idx => loadPartMask idx) := by
  have hsn : n / 8 = s := by omega
  simp [partitionMask, debugAssert, hdbg, hsn]

/-- `partition_mask` in debug builds for offsets beyond the width. -/
theorem partitionMask_debug (c : Cfg) (hdbg : c.debug = true) {off : Nat} (ho : w < off) :
    (partitionMask c off : Res (Vector (BitVec n) w)) = panic := by
  have : ¬ off ≤ w := by omega
  simp [partitionMask, debugAssert, hdbg, this]

end Faster
