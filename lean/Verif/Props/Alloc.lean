import Verif.Alloc
import Verif.Props.SizeChange
/-
C144: collecting never overflows the size of its buffer.
-/
namespace Faster
open Res SIMDSized SIMDIterable SIMDIterator

section
variable {I α : Type} {w : Nat} [SIMDSized I] [SIMDIterator I α w] [Packable α]

/-- `scalar_collect` of any iterator with `L` vectors: the allocation fails exactly
if `L + 1` vectors have more than `isize::MAX` bytes. -/
theorem C144_collect (c : Cfg) (fuel : Nat) (it : I) {L : Nat} (hL : len c it = ok L)
    (h1 : L + 1 < c.usize) (hu : (L + 1) * w < c.usize) :
    scalarCollectAlloc c fuel it =
      if (L + 1) * w * Packable.size α ≤ isizeMax c then scalarCollect c fuel it else panic := by
  simp only [scalarCollectAlloc, hL, ok_bind]
  rw [uadd_ok h1, ok_bind, umul_ok hu, ok_bind]
  by_cases h : (L + 1) * w * Packable.size α ≤ isizeMax c <;> simp [capacityCheck, assert, h]

/-- The same for `scalar_collect_all`. -/
theorem C144_collect_all (c : Cfg) (fuel : Nat) (it : I) {L : Nat} (hL : len c it = ok L)
    (h1 : L + 1 < c.usize) (hu : (L + 1) * w < c.usize) :
    scalarCollectAllAlloc c fuel it =
      if (L + 1) * w * Packable.size α ≤ isizeMax c then scalarCollectAll c fuel it else panic := by
  simp only [scalarCollectAllAlloc, hL, ok_bind]
  rw [uadd_ok h1, ok_bind, umul_ok hu, ok_bind]
  by_cases h : (L + 1) * w * Packable.size α ≤ isizeMax c <;> simp [capacityCheck, assert, h]

/-- Whatever the iterator, when the number of elements itself overflows `usize`:
debug builds panic. -/
theorem C144_overflow_debug (c : Cfg) (hd : c.debug = true) (fuel : Nat) (it : I) {L : Nat}
    (hL : len c it = ok L) (h1 : L + 1 < c.usize) (hu : c.usize ≤ (L + 1) * w) :
    scalarCollectAlloc c fuel it = panic := by
  simp only [scalarCollectAlloc, hL, ok_bind]
  rw [uadd_ok h1, ok_bind]
  simp [umul, show ¬ (L + 1) * w < c.usize by omega, hd]

end

/-- Every slice which can exist (at most `isize::MAX` bytes) with room for one more
vector is collected as without the limit, by any closure which keeps the size of
vectors. -/
theorem C144_room_partial {α β σ : Type} [Packable α] [Packable β] {w w' : Nat} (c : Cfg)
    (fuel : Nat) (data : List α) (d : Vector α w) (st : σ)
    (f : FnMut σ (Vector α w) (Vector β w'))
    (hw : 0 < w) (hs : 0 < Packable.size α) (hs' : 0 < Packable.size β)
    (hsize : w * Packable.size α = w' * Packable.size β)
    (hroom : (data.length + w) * Packable.size α ≤ isizeMax c) :
    scalarCollectAlloc c fuel (simdMap (simdIter data d) st f) =
      scalarCollect c fuel (simdMap (simdIter data d) st f) := by
  have hq : data.length / w * w ≤ data.length := Nat.div_mul_le_self _ _
  have hb : (data.length / w + 1) * w' * Packable.size β ≤ isizeMax c := by
    rw [Nat.mul_assoc, ← hsize, ← Nat.mul_assoc, Nat.succ_mul]
    exact Nat.le_trans (Nat.mul_le_mul_right _ (by omega)) hroom
  have hi : isizeMax c < c.usize ∨ isizeMax c = 0 := by unfold isizeMax; omega
  have hbig : isizeMax c < c.usize := by
    rcases hi with h | h
    · exact h
    · have : 0 < (data.length + w) * Packable.size α := Nat.mul_pos (by omega) hs
      omega
  have h1 : (data.length / w + 1) * w' ≤ (data.length / w + 1) * w' * Packable.size β :=
    Nat.le_mul_of_pos_right _ hs'
  have h2 : data.length / w ≤ data.length := Nat.div_le_self _ _
  have h3 : data.length + w ≤ (data.length + w) * Packable.size α := Nat.le_mul_of_pos_right _ hs
  have hL : len c (simdMap (simdIter data d) st f) = ok (data.length / w) :=
    simdIter_len c hw data d 0
  rw [C144_collect c fuel _ hL (by omega) (by omega),
    if_pos hb]

/-- Exactly: for closures which keep the size of vectors, collecting a slice panics
in the allocation if the whole vectors of the slice and one more have more than
`isize::MAX` bytes. -/
theorem C144_slice {α β σ : Type} [Packable α] [Packable β] {w w' : Nat} (c : Cfg)
    (fuel : Nat) (data : List α) (d : Vector α w) (st : σ)
    (f : FnMut σ (Vector α w) (Vector β w'))
    (hw : 0 < w) (hs' : 0 < Packable.size β)
    (hsize : w * Packable.size α = w' * Packable.size β)
    (hdata : data.length * Packable.size α ≤ isizeMax c)
    (hvec : w * Packable.size α + 2 ≤ isizeMax c) (hl : data.length + w < c.usize) :
    scalarCollectAlloc c fuel (simdMap (simdIter data d) st f) =
      if (data.length / w + 1) * w * Packable.size α ≤ isizeMax c then
        scalarCollect c fuel (simdMap (simdIter data d) st f) else panic := by
  have hq : data.length / w * w ≤ data.length := Nat.div_mul_le_self _ _
  have h2 : data.length / w ≤ data.length := Nat.div_le_self _ _
  have e : (data.length / w + 1) * w' * Packable.size β =
      (data.length / w + 1) * w * Packable.size α := by
    rw [Nat.mul_assoc, ← hsize, ← Nat.mul_assoc]
  have h1 : (data.length / w + 1) * w' ≤ (data.length / w + 1) * w' * Packable.size β :=
    Nat.le_mul_of_pos_right _ hs'
  have h4 : data.length / w * w * Packable.size α ≤ isizeMax c :=
    Nat.le_trans (Nat.mul_le_mul_right _ hq) hdata
  have h5 : (data.length / w + 1) * w * Packable.size α =
      data.length / w * w * Packable.size α + w * Packable.size α := by
    rw [Nat.succ_mul, Nat.add_mul]
  have hL : len c (simdMap (simdIter data d) st f) = ok (data.length / w) :=
    simdIter_len c hw data d 0
  rw [C144_collect c fuel _ hL (by omega)
    (by unfold isizeMax at *; omega), e]

/-- A closure may return larger vectors than it gets. When the number of result
elements then overflows `usize`, release builds allocate a wrapped capacity and write
out of bounds (unless the wrapped capacity itself is too large). -/
theorem C144_overflow_release {α β σ : Type} [Packable α] [Packable β] {w w' : Nat} (c : Cfg)
    (hd : c.debug = false) (fuel : Nat) (data : List α) (d : Vector α w) (st : σ)
    (f : FnMut σ (Vector α w) (Vector β w')) {q : List (Vector β w') × σ}
    (hw : 0 < w) (hw' : 0 < w') (hs' : 0 < Packable.size β) (hwu : 2 * w' ≤ c.usize)
    (hl : data.length + w < c.usize) (hf : data.length / w < fuel)
    (hq : callAll f st (fullWindows w data) = ok q)
    (hu : c.usize ≤ (data.length / w + 1) * w') :
    scalarCollectAlloc c fuel (simdMap (simdIter data d) st f) =
      if (data.length / w + 1) * w' % c.usize * Packable.size β ≤ isizeMax c then ub else panic := by
  have h2 : data.length / w ≤ data.length := Nat.div_le_self _ _
  have hL : len c (simdMap (simdIter data d) st f) = ok (data.length / w) :=
    simdIter_len c hw data d 0
  have hm : umul c (data.length / w + 1) w' = ok ((data.length / w + 1) * w' % c.usize) := by
    simp [umul, show ¬ (data.length / w + 1) * w' < c.usize by omega, hd]
  simp only [scalarCollectAlloc, hL, ok_bind]
  rw [uadd_ok (by omega), ok_bind, hm, ok_bind]
  generalize hK : (data.length / w + 1) * w' % c.usize = K
  by_cases h : K * Packable.size β ≤ isizeMax c
  · have hKle : K ≤ K * Packable.size β := Nat.le_mul_of_pos_right _ hs'
    have hKs : K < data.length / w * w' := by
      have hmod := Nat.mod_add_div ((data.length / w + 1) * w') c.usize
      have hdiv : 1 ≤ (data.length / w + 1) * w' / c.usize :=
        (Nat.le_div_iff_mul_le (by omega)).2 (by omega)
      have := Nat.mul_le_mul_left c.usize hdiv
      rw [hK] at hmod
      rw [Nat.mul_one] at this
      generalize c.usize * ((data.length / w + 1) * w' / c.usize) = x at hmod this
      rw [Nat.succ_mul] at hmod hu
      omega
    have hr := simdMap_runs f (simdIter_runs (represents_slice (w := w) c data) d hw hl 0 (by omega)) st
    rw [List.drop_zero] at hr
    rw [callAll_mapRun] at hq
    have hlen : (mapRun f st (fullWindows w data)).1.length = data.length / w := by
      cases h3 : (mapRun f st (fullWindows w data)).2 with
      | ok a => rw [mapRun_length f st a _ h3, fullWindows_length]
      | _ => rw [h3] at hq; cases hq
    have hs := fillLoop_runs_short some hr fuel (List.replicate K none) 0 Packed.default (by omega)
      (by simp) (by simp [hlen]; omega) (by simp; unfold isizeMax at h; omega)
    have ha : uadd c (data.length / w) 1 = ok (data.length / w + 1) := uadd_ok (by omega)
    rw [hK] at hm
    simp only [capacityCheck, h, decide_true, assert_true, ok_bind, if_true, scalarCollect, hL, ha, hm,
      RVec.withCapacity, RVec.setLen, List.length_replicate, Nat.le_refl, RVec.slice,
      List.take_replicate, Nat.min_self]
    rw [show simdMap (simdIter data d) st f = ⟨⟨0, ⟨data⟩, d⟩, st, f⟩ from rfl, hs]
    simp [badAccess, hd]
  · simp [capacityCheck, assert, h]

/-- The limit is reached: a 32-bit target, bytes in sixteen lanes, a slice of
`isize::MAX` bytes. -/
theorem C144_panics (data : List (BitVec 8)) (h : data.length = 2 ^ 31 - 1) (dbg : Bool) (fuel : Nat) :
    scalarCollectAlloc ⟨dbg, 2 ^ 32⟩ fuel
      (simdMap (simdIter (w := 16) data (Packed.splat 0)) () (pureFn (Vector.map id))) = panic := by
  rw [C144_slice _ fuel data _ () _ (by omega) (by decide) rfl]
  · rw [if_neg]
    simp [h, isizeMax, Packable.size]
  · simp [h, isizeMax, Packable.size]
  · simp [isizeMax, Packable.size]
  · simp [h]

/-- The claim is false, with undefined behaviour: a 32-bit release build, a slice of
2^27 `u64`s (one gibibyte) and a closure from `u64x2` to `u8x64`. -/
theorem C144_false (data : List (BitVec 64)) (h : data.length = 2 ^ 27)
    (g : Vector (BitVec 64) 2 → Vector (BitVec 8) 64) (fuel : Nat) (hf : 2 ^ 26 < fuel) :
    scalarCollectAlloc ⟨false, 2 ^ 32⟩ fuel
      (simdMap (simdIter data (Packed.splat 0)) () (pureFn g)) = ub := by
  rw [C144_overflow_release _ rfl fuel data _ () _ (by omega) (by omega) (by decide)
    (by simp) (by simp [h]) (by simp [h]; omega) (callAll_pure _ _) (by simp [h]), if_pos]
  simp [h, isizeMax, Packable.size]

example : ∃ data : List (BitVec 64), data.length = 2 ^ 27 := ⟨_, List.length_replicate (n := 2 ^ 27) (a := 0#64)⟩
example : ∃ data : List (BitVec 8), data.length = 2 ^ 31 - 1 :=
  ⟨_, List.length_replicate (n := 2 ^ 31 - 1) (a := 0#8)⟩
example : (scalarCollectAlloc release64 3 (simdMap (simdIter (w := 2) [1#8, 2, 3] #v[0, 0]) ()
    (pureFn (Vector.map (· + 1)))) >>= fun r => ok r.2) = ok [some 2, some 3, some 4] := by
  decide +kernel

end Faster
