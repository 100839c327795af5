import Verif.Props.CountEqual
import Verif.Props.Staged
/-
C156: comparing two slices with `eq_mask`.
-/
namespace Faster
open Res

variable {n w : Nat} {c : Cfg}

/-- `(xs.simd_iter(dx), ys.simd_iter(dy)).zip().simd_reduce(true, |acc, (u, v)| acc &
(u.eq_mask(v).count_ones() == bits))`, where `bits` is the number of bits of a vector. -/
def slicesEqual (c : Cfg) (fuel : Nat)
    (eq : Vector (BitVec n) w → Vector (BitVec n) w → Res (Vector (BitVec n) w))
    (ones : Vector (BitVec n) w → Res Nat) (xs ys : List (BitVec n)) (dx dy : Vector (BitVec n) w) :
    Res Bool := do
  let z ← zip c (simdIter xs dx) (simdIter ys dy, ())
  let (_, acc, _) ← zsimdReduce c fuel z true ()
    fun _ acc (v : Vector (BitVec n) w × Vector (BitVec n) w × Unit) => do
      let m ← eq v.1 v.2.1
      let k ← ones m
      ok (acc && k == w * n, ())
  ok acc

/-- The lanes a pass shows to the closure, in order. -/
theorem lanes_calls_eq {α : Type} (hw : 0 < w) (d : Vector α w) (l : List α) :
    lanes (calls w d l) = lanes (fullWindows w l) ++ (padding w d l ++ leftover w l) := by
  have hl := leftover_length w l
  have hm := Nat.mod_lt l.length hw
  unfold calls padding
  rw [lanes_append]
  congr 1
  split
  · have : leftover w l = [] := List.eq_nil_of_length_eq_zero (by omega)
    rw [this]; simp
  · have hpad := padFront_drop d (leftover w l) (by omega)
    have htake : (padFront d (leftover w l)).toList.take (w - l.length % w) =
        d.toList.take (w - l.length % w) := by
      apply List.ext_getElem
      · simp
      · intro i h1 h2
        simp only [List.length_take, Vector.length_toList] at h2
        simp only [List.getElem_take, Vector.getElem_toList]
        rw [padFront_getElem _ _ _ _ (by omega), dif_pos (by omega)]
    rw [hl] at hpad
    rw [lanes_cons, lanes_nil, List.append_nil,
      ← List.take_append_drop (w - l.length % w) (padFront d (leftover w l)).toList, hpad, htake]

/-- Two passes show the same vectors exactly if the slices and the lanes of the defaults are equal. -/
theorem calls_eq_iff {α : Type} (hw : 0 < w) (dx dy : Vector α w) {xs ys : List α}
    (h : xs.length = ys.length) :
    calls w dx xs = calls w dy ys ↔ xs = ys ∧ padding w dx xs = padding w dy ys := by
  have hx := lanes_fullWindows hw xs
  have hy := lanes_fullWindows hw ys
  have h1 : (lanes (fullWindows w xs)).length = (lanes (fullWindows w ys)).length := by
    simp [lanes_length, fullWindows_length, h]
  have h2 : (padding w dx xs).length = (padding w dy ys).length := by
    unfold padding; rw [h]; split <;> simp
  constructor
  · intro e
    have e := congrArg lanes e
    rw [lanes_calls_eq hw, lanes_calls_eq hw] at e
    obtain ⟨e1, e2⟩ := List.append_inj e h1
    obtain ⟨e3, e4⟩ := List.append_inj e2 h2
    exact ⟨by rw [← hx, ← hy, e1, e4], e3⟩
  · rintro ⟨rfl, e⟩
    rw [← calls_exact hw dx (calls w dx xs), ← calls_exact hw dx (calls w dy xs), lanes_calls_eq hw,
      lanes_calls_eq hw, e]

theorem eqMask_full (hn : 0 < n) {u v m : Vector (BitVec n) w} (h : IsEqMask u v m) :
    (vecOnes m == w * n) = decide (u = v) := by
  have hl : m.toList = (u.toList.zip v.toList).map fun p => if p.1 = p.2 then BitVec.allOnes n else 0 := by
    apply List.ext_getElem
    · simp
    · intro i h1 h2
      simp only [Vector.length_toList] at h1
      have := h i h1
      simp only [List.getElem_map, List.getElem_zip, Vector.getElem_toList]
      apply BitVec.eq_of_getLsbD_eq
      intro k hk
      by_cases he : u[i] = v[i]
      · rw [this.1 he k hk]; simp [he, hk]
      · rw [this.2 he k hk]; simp [he]
  have hsum (l : List (BitVec n × BitVec n)) :
      ((l.map fun p => if p.1 = p.2 then BitVec.allOnes n else 0).map onesOf).sum =
        n * l.countP fun p => p.1 = p.2 := by
    induction l with
    | nil => rfl
    | cons p l ih =>
      rw [List.map_cons, List.map_cons, List.sum_cons, ih, List.countP_cons]
      by_cases he : p.1 = p.2
      · simp only [he, if_true, onesOf_allOnes, decide_true]
        rw [Nat.mul_add]; omega
      · simp only [he, if_false, onesOf_zero, decide_false]; simp
  have hlen : (u.toList.zip v.toList).length = w := by simp
  unfold vecOnes
  rw [hl, hsum, Nat.mul_comm n, Bool.eq_iff_iff, beq_iff_eq, decide_eq_true_iff,
    Nat.mul_right_cancel_iff hn]
  conv => lhs; rhs; rw [← hlen]
  rw [List.countP_eq_length]
  constructor
  · intro hall
    ext1 i hi
    have := hall (u[i], v[i]) (by
      rw [List.mem_iff_getElem]
      exact ⟨i, by simpa using hi, by simp⟩)
    simpa using this
  · rintro rfl p hp
    obtain ⟨i, hi, rfl⟩ := List.getElem_of_mem hp
    simp

/-- **C156**: whether the slices are equal and the lanes of the defaults which fill the last vectors. -/
theorem C156_equal (hw : 0 < w) (hn : 0 < n)
    {eq : Vector (BitVec n) w → Vector (BitVec n) w → Res (Vector (BitVec n) w)} (heq : EqOp eq)
    {ones : Vector (BitVec n) w → Res Nat} (hones : OnesOp ones) (fuel : Nat) (xs ys : List (BitVec n))
    (dx dy : Vector (BitVec n) w) (h : xs.length = ys.length) (hu : xs.length + w < c.usize)
    (hfuel : xs.length / w < fuel) :
    slicesEqual c fuel eq ones xs ys dx dy =
      ok (decide (xs = ys ∧ padding w dx xs = padding w dy ys)) := by
  have key (us vs : List (Vector (BitVec n) w)) : ∀ acc : Bool, us.length = vs.length →
      (List.zipWith (fun u v => (u, v, ())) us vs).foldlM
        (fun (p : Bool × Unit) (v : Vector (BitVec n) w × Vector (BitVec n) w × Unit) => (do
          let m ← eq v.1 v.2.1
          let k ← ones m
          ok (p.1 && k == w * n, ()) : Res (Bool × Unit))) (acc, ()) =
        ok (acc && decide (us = vs), ()) := by
    induction us generalizing vs with
    | nil =>
      intro acc hl
      obtain rfl : vs = [] := List.eq_nil_of_length_eq_zero hl.symm
      simp
    | cons u us ih =>
      intro acc hl
      match vs, hl with
      | v :: vs, hl =>
        obtain ⟨m, hm, hmask⟩ := heq u v
        rw [List.zipWith_cons_cons, List.foldlM_cons]
        simp only [hm, ok_bind, hones m, eqMask_full hn hmask]
        rw [ih vs _ (by simpa using hl)]
        congr 2
        rw [Bool.and_assoc]
        congr 1
        rw [Bool.eq_iff_iff]
        simp
  have h1 := C24_zip_reduce (c := c) (xs := xs) (ys := ys) (dx := dx) (dy := dy) fuel true ()
    (fun _ acc (v : Vector (BitVec n) w × Vector (BitVec n) w × Unit) => (do
      let m ← eq v.1 v.2.1
      let k ← ones m
      ok (acc && k == w * n, ()) : Res (Bool × Unit))) h hw hu hfuel
  rw [key _ _ true (by
    unfold calls
    rw [List.length_append, List.length_append, fullWindows_length, fullWindows_length, h]
    split <;> simp)] at h1
  have h2 := congrArg (· >>= fun p => ok p.1) h1
  simp only [bind_assoc, ok_bind, Bool.true_and, calls_eq_iff hw dx dy h] at h2
  unfold slicesEqual
  exact h2

/-- **C156**, partial: whether the slices are equal, with one default vector for both. Missing:
different default vectors (`C156_false`). -/
theorem C156_partial (hw : 0 < w) (hn : 0 < n)
    {eq : Vector (BitVec n) w → Vector (BitVec n) w → Res (Vector (BitVec n) w)} (heq : EqOp eq)
    {ones : Vector (BitVec n) w → Res Nat} (hones : OnesOp ones) (fuel : Nat) (xs ys : List (BitVec n))
    (d : Vector (BitVec n) w) (h : xs.length = ys.length) (hu : xs.length + w < c.usize)
    (hfuel : xs.length / w < fuel) :
    slicesEqual c fuel eq ones xs ys d d = ok (decide (xs = ys)) := by
  rw [C156_equal hw hn heq hones fuel xs ys d d h hu hfuel]
  congr 1
  rw [Bool.eq_iff_iff]
  simp only [decide_eq_true_iff, and_iff_left_iff_imp]
  rintro rfl
  rfl

/-- **C156** is false for different defaults: a slice which does not fill the last vector seems to be
different from itself, for every version of the operations. -/
theorem C156_false (hn : 0 < n)
    {eq : Vector (BitVec n) w → Vector (BitVec n) w → Res (Vector (BitVec n) w)} (heq : EqOp eq)
    {ones : Vector (BitVec n) w → Res Nat} (hones : OnesOp ones) (fuel : Nat) (xs : List (BitVec n))
    (x y : BitVec n) (hxy : x ≠ y) (hw : 0 < w) (hl : xs.length % w ≠ 0) (hu : xs.length + w < c.usize)
    (hfuel : xs.length / w < fuel) :
    slicesEqual c fuel eq ones xs xs (Packed.splat x) (Packed.splat y) = ok false := by
  rw [C156_equal hw hn heq hones fuel xs xs _ _ rfl hu hfuel]
  congr 1
  have hm := Nat.mod_lt xs.length hw
  rw [decide_eq_false_iff_not]
  rintro ⟨-, h⟩
  simp only [padding, if_neg hl, Packed.splat, Vector.toList_replicate, List.take_replicate] at h
  have h0 : w - xs.length % w ≠ 0 := by omega
  have := List.eq_of_mem_replicate (h ▸ List.mem_replicate.2 ⟨by omega, rfl⟩ :
    x ∈ List.replicate (min (w - xs.length % w) w) y)
  exact hxy this

/-- The hypotheses can be met: `u8x16` with SSE2. -/
example : slicesEqual release64 9 (n := 8) (w := 16) (binaryInstr eqRows[0].mm)
    (fun v => popcntShuffle release64 [0, 4] (reinterpret v : Vector (BitVec 8) 16))
    [1, 2, 3] [1, 2, 4] (Packed.splat 0) (Packed.splat 0) = ok false :=
  C156_partial (n := 8) (w := 16) (by decide) (by decide) ((C154_versions release64).1 eqRows[0] (by simp) (by decide))
    ((C154_versions release64).2.2.1 16 [0, 4] 8 16 .sse (by decide) rfl) 9 [1, 2, 3] [1, 2, 4] _ rfl
    (by decide) (by decide)

end Faster
