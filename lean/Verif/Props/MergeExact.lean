import Verif.Props.MaskAt
/-
C36, C37: the blend versions of `merge_partitioned` and `partition` for every offset.
-/
namespace Faster
open Res

variable {n w s : Nat}

/-- **C36**, exact: `merge_partitioned`, blend version, for every offset. Offsets beyond the width return
`self` in release builds as long as they do not exceed the half of the mask table, offsets just below
`2^64` read behind the table, or return `other` where the wrapped mask lies in the table. -/
theorem C36_exact (c : Cfg) (hn : n = 8 * s) (hs : 0 < s) (hd : 64 % s = 0)
    (hws : w * s ≤ 64) (hw : 0 < w) (hc : 256 ≤ c.usize) (a b : Vector (BitVec n) w)
    {off : Nat} (ho : off < c.usize) :
    mergePartitionedBlend c a b off =
      if off ≤ w then ok (select (fun i => i < off) a b)
      else if c.debug then panic
      else if off ≤ 64 / s then ok a
      else if c.usize - off + w ≤ 64 / s then ok b
      else if c.usize - off + w + 64 / s ≤ 128 then ub else panic := by
  unfold mergePartitionedBlend
  rw [C57_mask_outcome c hn hs hd hws hw hc ho]
  split
  · rw [ok_bind, blendLanes_select a b _ hn (fun i => i < off) hs (by intro i h; simp)]
  split
  · rfl
  split
  · rw [ok_bind, blendLanes_select a b _ hn (fun _ => true) hs (by intro i h; simp)]
    congr 1
    apply Vector.ext
    intro i hi
    simp [select]
  split
  · rw [ok_bind, blendLanes_select a b _ hn (fun _ => false) hs (by intro i h; simp)]
    congr 1
    apply Vector.ext
    intro i hi
    simp [select]
  split <;> rfl

/-- **C37**, exact: `partition`, blend version, for every offset. -/
theorem C37_exact (c : Cfg) (hn : n = 8 * s) (hs : 0 < s) (hd : 64 % s = 0)
    (hws : w * s ≤ 64) (hw : 0 < w) (hc : 256 ≤ c.usize) (hi lo : BitVec n)
    {off : Nat} (ho : off < c.usize) :
    (partitionBlend c hi lo off : Res (Vector (BitVec n) w)) =
      if off ≤ w then ok (Vector.ofFn fun i => if i.val < off then hi else lo)
      else if c.debug then panic
      else if off ≤ 64 / s then ok (Vector.replicate w hi)
      else if c.usize - off + w ≤ 64 / s then ok (Vector.replicate w lo)
      else if c.usize - off + w + 64 / s ≤ 128 then ub else panic := by
  rw [show (partitionBlend c hi lo off : Res (Vector (BitVec n) w)) =
      mergePartitionedBlend c (Packed.splat hi) (Packed.splat lo) off from rfl,
    C36_exact c hn hs hd hws hw hc _ _ ho]
  split
  · congr 1
    apply Vector.ext
    intro i hi
    simp [select, Packed.splat]
  · rfl

/-- `merge_partitioned(other, 2^64 - 1)` of `u64x2` in a release build is `other`. -/
example : mergePartitionedBlend release64 #v[1#64, 2#64] #v[3#64, 4#64] (2 ^ 64 - 1) =
    ok #v[3#64, 4#64] := by
  rw [C36_exact (s := 8) release64 rfl (by decide) (by decide) (by decide) (by decide) (by decide) _ _
    (by decide)]
  decide +kernel

end Faster
