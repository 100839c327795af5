import Verif.Props.CountEqual
import Verif.Props.Extreme
/-
C172: counting the elements which are at most, or at least, a bound.
-/
namespace Faster
open Res

variable {n w : Nat} {c : Cfg} {signed big : Bool}

/-- `slice.simd_iter(d).simd_reduce(0usize, |acc, v| acc + v.min(splat(t)).eq_mask(v).count_ones()) / bits`, or with
`max`; `ext`, `eq` and `ones` are versions of the three operations (src/intrin/cmp.rs, src/intrin/eq.rs,
src/intrin/popcnt.rs). -/
def countBound (c : Cfg) (fuel : Nat)
    (ext eq : Vector (BitVec n) w → Vector (BitVec n) w → Res (Vector (BitVec n) w))
    (ones : Vector (BitVec n) w → Res Nat) (data : List (BitVec n)) (d : Vector (BitVec n) w)
    (t : BitVec n) : Res Nat := do
  let (_, acc, _) ← simdReduce c fuel (simdIter data d) 0 () fun _ acc v => do
    let u ← ext v (Packed.splat t)
    let m ← eq u v
    let k ← ones m
    let s ← uadd c acc k
    ok (s, ())
  udiv acc n

/-- Specification: at most the bound, or at least the bound if `big`. -/
def withinBound (signed big : Bool) (t x : BitVec n) : Bool :=
  if big then decide (num signed t ≤ num signed x) else decide (num signed x ≤ num signed t)

theorem num_eq_iff (x y : BitVec n) : num signed x = num signed y ↔ x = y :=
  ⟨num_inj signed, fun h => h ▸ rfl⟩

/-- The extreme of an element and a bound is the element exactly if the element is within the bound. -/
theorem extreme_eq_iff {x t r : BitVec n} (h : IsExtreme signed big x t r) :
    r = x ↔ withinBound signed big t x = true := by
  have h2 := h.2
  rw [← num_eq_iff (signed := signed), h2]
  unfold withinBound
  cases big <;> simp

theorem bound_ones {v u m : Vector (BitVec n) w} {t : BitVec n}
    (hu : ∀ i (hi : i < w), IsExtreme signed big v[i] (Packed.splat t : Vector (BitVec n) w)[i] u[i])
    (h : IsEqMask u v m) : vecOnes m = n * v.toList.countP (withinBound signed big t) := by
  have e : m.toList = v.toList.map fun y => if withinBound signed big t y then BitVec.allOnes n else 0 := by
    apply List.ext_getElem
    · simp
    · intro i h1 h2
      simp only [Vector.length_toList] at h1
      have h3 := h i h1
      have h4 := hu i h1
      simp only [Packed.splat, Vector.getElem_replicate] at h4
      have h5 := extreme_eq_iff h4
      simp only [List.getElem_map, Vector.getElem_toList]
      apply BitVec.eq_of_getLsbD_eq
      intro k hk
      by_cases he : u[i] = v[i]
      · rw [h3.1 he k hk, if_pos (h5.1 he)]; simp [hk]
      · rw [h3.2 he k hk, if_neg (fun h => he (h5.2 h))]; simp
  unfold vecOnes
  rw [e, List.map_map]
  generalize v.toList = l
  induction l with
  | nil => rfl
  | cons y l ih =>
    rw [List.map_cons, List.sum_cons, ih, List.countP_cons]
    simp only [Function.comp]
    split
    · rw [onesOf_allOnes, Nat.mul_add]; omega
    · rw [onesOf_zero]; simp

theorem lanes_calls_countP {α : Type} [DecidableEq α] (hw : 0 < w) (d : Vector α w) (l : List α) (p : α → Bool) :
    (lanes (calls w d l)).countP p = l.countP p + (padding w d l).countP p := by
  have hp : (lanes (calls w d l)).Perm (l ++ padding w d l) := by
    rw [List.perm_iff_count]
    intro x
    rw [lanes_calls_count hw, List.count_append]
  rw [← List.countP_append]
  exact hp.countP_eq p

/-- **C172**: the number of elements within the bound, and of lanes of the default vector within it which fill the
last vector. -/
theorem C172_count (hw : 0 < w) (hn : 0 < n)
    {ext eq : Vector (BitVec n) w → Vector (BitVec n) w → Res (Vector (BitVec n) w)}
    (hext : ExtremeOp signed big ext) (heq : EqOp eq) {ones : Vector (BitVec n) w → Res Nat} (hones : OnesOp ones)
    (fuel : Nat) (data : List (BitVec n)) (d : Vector (BitVec n) w) (t : BitVec n)
    (hlen : n * (data.length + w) < c.usize) (hfuel : data.length / w < fuel) :
    countBound c fuel ext eq ones data d t =
      ok (data.countP (withinBound signed big t) + (padding w d data).countP (withinBound signed big t)) := by
  have hlen' : data.length + w < c.usize := Nat.lt_of_le_of_lt (Nat.le_mul_of_pos_left _ hn) hlen
  unfold countBound
  rw [C03_reduce_fold c fuel data d 0 () _ hw hlen' hfuel]
  generalize hq : withinBound signed big t = q
  have key (vs : List (Vector (BitVec n) w)) : ∀ acc : Nat, acc + n * (lanes vs).countP q < c.usize →
      vs.foldlM (fun (p : Nat × Unit) v => (do
        let u ← ext v (Packed.splat t)
        let m ← eq u v
        let k ← ones m
        let s ← uadd c p.1 k
        ok (s, ()) : Res (Nat × Unit))) (acc, ()) = ok (acc + n * (lanes vs).countP q, ()) := by
    induction vs with
    | nil => intro acc _; simp
    | cons v vs ih =>
      intro acc h
      rw [lanes_cons, List.countP_append, Nat.mul_add] at h ⊢
      obtain ⟨u, hu, hux⟩ := hext v (Packed.splat t)
      obtain ⟨m, hm, hmask⟩ := heq u v
      rw [List.foldlM_cons]
      simp only [hu, hm, ok_bind, hones m, bound_ones hux hmask, hq]
      have hadd : uadd c acc (n * v.toList.countP q) = ok (acc + n * v.toList.countP q) := by
        unfold uadd
        rw [if_pos (by omega)]
      rw [hadd]
      simp only [ok_bind]
      rw [ih _ (by omega), Nat.add_assoc]
  have hc := lanes_calls_countP hw d data q
  have hp : (padding w d data).countP q ≤ w := by
    refine Nat.le_trans List.countP_le_length ?_
    unfold padding; split <;> simp
  have hd : data.countP q ≤ data.length := List.countP_le_length
  have hb : n * (lanes (calls w d data)).countP q ≤ n * (data.length + w) := by
    rw [hc]; exact Nat.mul_le_mul_left n (by omega)
  have h := key (calls w d data) 0 (by omega)
  have h' : (do
      let (acc, st') ← (calls w d data).foldlM (fun (p : Nat × Unit) v => (do
        let u ← ext v (Packed.splat t)
        let m ← eq u v
        let k ← ones m
        let s ← uadd c p.1 k
        ok (s, ()) : Res (Nat × Unit))) (0, ())
      ok ((⟨data.length, ⟨data⟩, d⟩ : SIMDIter (Slice (BitVec n) w) (BitVec n) w), acc, st')) =
      ok (⟨data.length, ⟨data⟩, d⟩, n * (lanes (calls w d data)).countP q, ()) := by
    rw [h, Nat.zero_add]; rfl
  rw [h']
  simp only [ok_bind, udiv]
  rw [if_neg (by omega), Nat.mul_div_cancel_left _ hn, hc]

/-- **C172**, partial: the number of elements within the bound if no lane of the default is. Missing: other defaults
(`C172_false`). -/
theorem C172_partial (hw : 0 < w) (hn : 0 < n)
    {ext eq : Vector (BitVec n) w → Vector (BitVec n) w → Res (Vector (BitVec n) w)}
    (hext : ExtremeOp signed big ext) (heq : EqOp eq) {ones : Vector (BitVec n) w → Res Nat} (hones : OnesOp ones)
    (fuel : Nat) (data : List (BitVec n)) (d : Vector (BitVec n) w) (t : BitVec n)
    (hd : ∀ y ∈ d.toList, withinBound signed big t y = false)
    (hlen : n * (data.length + w) < c.usize) (hfuel : data.length / w < fuel) :
    countBound c fuel ext eq ones data d t = ok (data.countP (withinBound signed big t)) := by
  rw [C172_count hw hn hext heq hones fuel data d t hlen hfuel, (List.countP_eq_zero.2 _ :
    (padding w d data).countP (withinBound signed big t) = 0), Nat.add_zero]
  intro y hy
  unfold padding at hy
  split at hy
  · simp at hy
  · rw [hd y (List.mem_of_mem_take hy)]; decide

/-- **C172**: exact precisely if no default lane which fills the last vector is within the bound. -/
theorem C172_iff (hw : 0 < w) (hn : 0 < n)
    {ext eq : Vector (BitVec n) w → Vector (BitVec n) w → Res (Vector (BitVec n) w)}
    (hext : ExtremeOp signed big ext) (heq : EqOp eq) {ones : Vector (BitVec n) w → Res Nat} (hones : OnesOp ones)
    (fuel : Nat) (data : List (BitVec n)) (d : Vector (BitVec n) w) (t : BitVec n)
    (hlen : n * (data.length + w) < c.usize) (hfuel : data.length / w < fuel) :
    countBound c fuel ext eq ones data d t = ok (data.countP (withinBound signed big t)) ↔
      ∀ y ∈ padding w d data, withinBound signed big t y = false := by
  rw [C172_count hw hn hext heq hones fuel data d t hlen hfuel]
  simp only [Res.ok.injEq, Nat.add_eq_left, List.countP_eq_zero, Bool.not_eq_true]

/-- **C172** is false: for every default there is a bound, its first lane, for which missing lanes are counted. -/
theorem C172_false (hw : 0 < w) (hn : 0 < n)
    {ext eq : Vector (BitVec n) w → Vector (BitVec n) w → Res (Vector (BitVec n) w)}
    (hext : ExtremeOp signed big ext) (heq : EqOp eq) {ones : Vector (BitVec n) w → Res Nat} (hones : OnesOp ones)
    (fuel : Nat) (data : List (BitVec n)) (d : Vector (BitVec n) w) (h0 : data.length % w ≠ 0)
    (hlen : n * (data.length + w) < c.usize) (hfuel : data.length / w < fuel) :
    ∃ t, countBound c fuel ext eq ones data d t ≠ ok (data.countP (withinBound signed big t)) := by
  refine ⟨d[0], fun h => ?_⟩
  have hm := Nat.mod_lt data.length hw
  have := (C172_iff hw hn hext heq hones fuel data d d[0] hlen hfuel).1 h d[0] (by
    unfold padding
    rw [if_neg h0, List.mem_iff_getElem]
    exact ⟨0, by simp; omega, by simp⟩)
  unfold withinBound at this
  cases big <;> simp at this

/-- The hypotheses can be met: the bytes which are at most six among nine, `u8x16` with SSE2. -/
example : countBound release64 9 (n := 8) (w := 16) (binaryInstr cmpRows[0].mm) (binaryInstr eqRows[0].mm)
    (fun v => popcntShuffle release64 [0, 4] (reinterpret v : Vector (BitVec 8) 16))
    [7#8, 1, 7, 2, 3, 4, 5, 6, 200] (Packed.splat 255) 6 = ok 6 :=
  C172_partial (n := 8) (w := 16) (signed := false) (big := false) (by decide) (by decide)
    ((C155_versions release64).1 cmpRows[0] (by simp) (by decide)) ((C154_versions release64).1 eqRows[0] (by simp)
    (by decide)) ((C154_versions release64).2.2.1 16 [0, 4] 8 16 .sse (by decide) rfl) 9 _ _ 6
    (by decide +kernel) (by decide) (by decide)

end Faster
