import Verif.Props.EndToEnd
import Verif.Props.Popcnt
import Verif.Props.Split
import Verif.SoftExamples
/-
C154: counting the elements equal to a value with `eq_mask`.
-/
namespace Faster
open Res

variable {n w : Nat} {c : Cfg}

/-- A version of `eq_mask` for integer lanes. -/
def EqOp (F : Vector (BitVec n) w → Vector (BitVec n) w → Res (Vector (BitVec n) w)) : Prop :=
  ∀ a b, ∃ v, F a b = ok v ∧ IsEqMask a b v

/-- A version of `count_ones`. -/
def OnesOp (F : Vector (BitVec n) w → Res Nat) : Prop := ∀ v, F v = ok (vecOnes v)

/-- A version of `sum_upcast` which is exact for lanes of zeros and ones. -/
def FlagSum (signed : Bool) (F : Vector (BitVec n) w → Res (BitVec 64)) : Prop :=
  ∀ v, (∀ y ∈ v.toList, y = 0 ∨ y = 1) → ∃ r, F v = ok r ∧ r.toInt = total signed v

/-- `slice.simd_iter(d).simd_reduce(0usize, |acc, v| acc + v.eq_mask(splat(x)).count_ones()) / bits`. -/
def countOnesEq (c : Cfg) (fuel : Nat)
    (eq : Vector (BitVec n) w → Vector (BitVec n) w → Res (Vector (BitVec n) w))
    (ones : Vector (BitVec n) w → Res Nat) (data : List (BitVec n)) (d : Vector (BitVec n) w)
    (x : BitVec n) : Res Nat := do
  let (_, acc, _) ← simdReduce c fuel (simdIter data d) 0 () fun _ acc v => do
    let m ← eq v (Packed.splat x)
    let k ← ones m
    let s ← uadd c acc k
    ok (s, ())
  udiv acc n

/-- `slice.simd_iter(d).simd_reduce(0i64, |acc, v| acc + (v.eq_mask(splat(x)) & splat(1)).sum_upcast())`. -/
def countSumEq (c : Cfg) (fuel : Nat)
    (eq : Vector (BitVec n) w → Vector (BitVec n) w → Res (Vector (BitVec n) w))
    (sum : Vector (BitVec n) w → Res (BitVec 64)) (data : List (BitVec n)) (d : Vector (BitVec n) w)
    (x : BitVec n) : Res (BitVec 64) := do
  let (_, acc, _) ← simdReduce c fuel (simdIter data d) 0#64 () fun _ acc v => do
    let m ← eq v (Packed.splat x)
    let k ← sum (m.zipWith (· &&& ·) (Packed.splat 1))
    let s ← addInt c .i acc k
    ok (s, ())
  ok acc

/-- The lanes of the default vector which a pass shows to the closure. -/
def padding {α : Type} (w : Nat) (d : Vector α w) (l : List α) : List α :=
  if l.length % w = 0 then [] else d.toList.take (w - l.length % w)

theorem lanes_calls_count {α : Type} [DecidableEq α] (hw : 0 < w) (d : Vector α w) (l : List α) (x : α) :
    (lanes (calls w d l)).count x = l.count x + (padding w d l).count x := by
  have key := lanes_fullWindows hw l
  have hl := leftover_length w l
  have hm := Nat.mod_lt l.length hw
  conv => rhs; lhs; rw [← key]
  unfold calls padding
  rw [lanes_append, List.count_append, List.count_append]
  split
  · have : leftover w l = [] := List.eq_nil_of_length_eq_zero (by omega)
    rw [this]; simp
  · have hpad := padFront_drop d (leftover w l) (by omega)
    have htake : (padFront d (leftover w l)).toList.take (w - l.length % w) =
        d.toList.take (w - l.length % w) := by
      apply List.ext_getElem
      · simp
      · intro i h1 h2
        simp only [List.length_take, Vector.length_toList] at h2
        simp only [List.getElem_take, Vector.getElem_toList]
        rw [padFront_getElem _ _ _ _ (by omega), dif_pos (by omega)]
    rw [hl] at hpad
    rw [lanes_cons, lanes_nil, List.append_nil,
      ← List.take_append_drop (w - l.length % w) (padFront d (leftover w l)).toList, hpad, htake,
      List.count_append]
    omega

theorem eqMask_toList {v m : Vector (BitVec n) w} {x : BitVec n} (h : IsEqMask v (Packed.splat x) m) :
    m.toList = v.toList.map fun y => if y = x then BitVec.allOnes n else 0 := by
  apply List.ext_getElem
  · simp
  · intro i h1 h2
    simp only [Vector.length_toList] at h1
    have := h i h1
    simp only [Packed.splat, Vector.getElem_replicate] at this
    simp only [List.getElem_map, Vector.getElem_toList]
    apply BitVec.eq_of_getLsbD_eq
    intro k hk
    by_cases he : v[i] = x
    · rw [this.1 he k hk]; simp [he, hk]
    · rw [this.2 he k hk]; simp [he]

theorem onesOf_allOnes : onesOf (BitVec.allOnes n) = n := by
  unfold onesOf
  rw [List.countP_eq_length.2]
  · simp
  · intro k hk
    simpa using hk

theorem onesOf_zero : onesOf (0 : BitVec n) = 0 := by
  unfold onesOf
  rw [List.countP_eq_zero]
  simp

theorem eqMask_ones {v m : Vector (BitVec n) w} {x : BitVec n} (h : IsEqMask v (Packed.splat x) m) :
    vecOnes m = n * v.toList.count x := by
  unfold vecOnes
  rw [eqMask_toList h, List.map_map]
  generalize v.toList = l
  induction l with
  | nil => rfl
  | cons y l ih =>
    rw [List.map_cons, List.sum_cons, ih, List.count_cons]
    by_cases he : y = x
    · simp [he, onesOf_allOnes, Nat.mul_add, Nat.add_comm]
    · have := onesOf_zero (n := n)
      simp [he] at this ⊢
      exact this

theorem eqMask_flags (hn : 1 < n) (signed : Bool) {v m : Vector (BitVec n) w} {x : BitVec n}
    (h : IsEqMask v (Packed.splat x) m) :
    (∀ y ∈ (m.zipWith (· &&& ·) (Packed.splat 1)).toList, y = 0 ∨ y = 1) ∧
    total signed (m.zipWith (· &&& ·) (Packed.splat 1)) = v.toList.count x := by
  have e : (m.zipWith (· &&& ·) (Packed.splat 1)).toList =
      v.toList.map fun y => if y = x then (1 : BitVec n) else 0 := by
    have : (m.zipWith (· &&& ·) (Packed.splat 1)).toList = m.toList.map fun y => y &&& 1 := by
      apply List.ext_getElem
      · simp
      · intro i h1 h2; simp [Packed.splat]
    rw [this, eqMask_toList h, List.map_map]
    apply List.map_congr_left
    intro y _
    by_cases he : y = x <;> simp [he, BitVec.allOnes_and]
  constructor
  · rw [e]
    intro y hy
    rw [List.mem_map] at hy
    obtain ⟨z, -, rfl⟩ := hy
    split <;> simp
  · unfold total
    rw [e, List.map_map]
    generalize v.toList = l
    have h1 : num signed (1 : BitVec n) = 1 := by
      have h2 : 2 ^ 1 < 2 ^ n := Nat.pow_lt_pow_right (by omega) hn
      have : (1 : BitVec n).toNat = 1 := by
        show 1 % 2 ^ n = 1
        exact Nat.mod_eq_of_lt (by omega)
      unfold num
      split
      · rw [BitVec.toInt_eq_toNat_of_lt (by rw [this]; omega), this]; rfl
      · rw [this]; rfl
    have h0 : num signed (0 : BitVec n) = 0 := by
      unfold num; split <;> simp
    induction l with
    | nil => rfl
    | cons y l ih =>
      rw [List.map_cons, List.sum_cons, ih, List.count_cons]
      by_cases he : y = x
      · simp only [Function.comp, he, if_true, h1, beq_self_eq_true]; omega
      · have : (y == x) = false := by simpa using he
        simp only [Function.comp, he, if_false, h0, this]; simp

theorem lanes_count_cons {α : Type} [DecidableEq α] (v : Vector α w) (vs : List (Vector α w)) (x : α) :
    (lanes (v :: vs)).count x = v.toList.count x + (lanes vs).count x := by
  rw [lanes_cons, List.count_append]

/-- **C154**: counting with `eq_mask` and `count_ones` counts the elements equal to `x`, and the lanes
of the default vector equal to `x` which fill the last vector. -/
theorem C154_ones (hw : 0 < w) (hn : 0 < n)
    {eq : Vector (BitVec n) w → Vector (BitVec n) w → Res (Vector (BitVec n) w)} (heq : EqOp eq)
    {ones : Vector (BitVec n) w → Res Nat} (hones : OnesOp ones) (fuel : Nat) (data : List (BitVec n))
    (d : Vector (BitVec n) w) (x : BitVec n) (hlen : n * (data.length + w) < c.usize)
    (hfuel : data.length / w < fuel) :
    countOnesEq c fuel eq ones data d x = ok (data.count x + (padding w d data).count x) := by
  have hlen' : data.length + w < c.usize := Nat.lt_of_le_of_lt (Nat.le_mul_of_pos_left _ hn) hlen
  unfold countOnesEq
  rw [C03_reduce_fold c fuel data d 0 () _ hw hlen' hfuel]
  have key (vs : List (Vector (BitVec n) w)) : ∀ acc : Nat, acc + n * (lanes vs).count x < c.usize →
      vs.foldlM (fun (p : Nat × Unit) v => (do
        let m ← eq v (Packed.splat x)
        let k ← ones m
        let s ← uadd c p.1 k
        ok (s, ()) : Res (Nat × Unit))) (acc, ()) = ok (acc + n * (lanes vs).count x, ()) := by
    induction vs with
    | nil => intro acc _; simp
    | cons v vs ih =>
      intro acc h
      rw [lanes_count_cons, Nat.mul_add] at h ⊢
      obtain ⟨m, hm, hmask⟩ := heq v (Packed.splat x)
      rw [List.foldlM_cons]
      simp only [hm, ok_bind, hones m, eqMask_ones hmask]
      have hadd : uadd c acc (n * v.toList.count x) = ok (acc + n * v.toList.count x) := by
        unfold uadd
        rw [if_pos (by omega)]
      rw [hadd]
      simp only [ok_bind]
      rw [ih _ (by omega), Nat.add_assoc]
  have hc := lanes_calls_count hw d data x
  have hp : (padding w d data).count x ≤ w := by
    refine Nat.le_trans List.count_le_length ?_
    unfold padding; split <;> simp
  have hd : data.count x ≤ data.length := List.count_le_length
  have hb : n * (lanes (calls w d data)).count x ≤ n * (data.length + w) := by
    rw [hc]; exact Nat.mul_le_mul_left n (by omega)
  have h := key (calls w d data) 0 (by omega)
  have h' : (do
      let (acc, st') ← (calls w d data).foldlM (fun (p : Nat × Unit) v => (do
        let m ← eq v (Packed.splat x)
        let k ← ones m
        let s ← uadd c p.1 k
        ok (s, ()) : Res (Nat × Unit))) (0, ())
      ok ((⟨data.length, ⟨data⟩, d⟩ : SIMDIter (Slice (BitVec n) w) (BitVec n) w), acc, st')) =
      ok (⟨data.length, ⟨data⟩, d⟩, n * (lanes (calls w d data)).count x, ()) := by
    rw [h, Nat.zero_add]; rfl
  rw [h']
  simp only [ok_bind, udiv]
  rw [if_neg (by omega), Nat.mul_div_cancel_left _ hn, hc]

/-- **C154**: likewise with `eq_mask`, `&` and `sum_upcast`. -/
theorem C154_sum (hw : 0 < w) (hn : 1 < n) {signed : Bool}
    {eq : Vector (BitVec n) w → Vector (BitVec n) w → Res (Vector (BitVec n) w)} (heq : EqOp eq)
    {sum : Vector (BitVec n) w → Res (BitVec 64)} (hsum : FlagSum signed sum) (fuel : Nat)
    (data : List (BitVec n)) (d : Vector (BitVec n) w) (x : BitVec n)
    (hlen : data.length + w < c.usize) (hsize : data.length + w < 2 ^ 63)
    (hfuel : data.length / w < fuel) :
    countSumEq c fuel eq sum data d x =
      ok (BitVec.ofNat 64 (data.count x + (padding w d data).count x)) := by
  unfold countSumEq
  rw [C03_reduce_fold c fuel data d 0#64 () _ hw hlen hfuel]
  have key (vs : List (Vector (BitVec n) w)) : ∀ acc : Nat, acc + (lanes vs).count x < 2 ^ 63 →
      vs.foldlM (fun (p : BitVec 64 × Unit) v => (do
        let m ← eq v (Packed.splat x)
        let k ← sum (m.zipWith (· &&& ·) (Packed.splat 1))
        let s ← addInt c .i p.1 k
        ok (s, ()) : Res (BitVec 64 × Unit))) (BitVec.ofNat 64 acc, ()) =
      ok (BitVec.ofNat 64 (acc + (lanes vs).count x), ()) := by
    induction vs with
    | nil => intro acc _; simp
    | cons v vs ih =>
      intro acc h
      rw [lanes_count_cons] at h ⊢
      obtain ⟨m, hm, hmask⟩ := heq v (Packed.splat x)
      obtain ⟨hf, ht⟩ := eqMask_flags hn signed hmask
      obtain ⟨r, hr, hrt⟩ := hsum _ hf
      have hti (k : Nat) (hk : k < 2 ^ 63) : (BitVec.ofNat 64 k).toInt = k := by
        rw [BitVec.toInt_eq_toNat_of_lt (by simp; omega)]
        simp; omega
      have hr' : r = BitVec.ofNat 64 (v.toList.count x) := by
        apply BitVec.eq_of_toInt_eq
        rw [hrt, ht, hti _ (by omega)]
      rw [List.foldlM_cons]
      simp only [hm, ok_bind, hr, hr']
      have hadd : addInt c .i (BitVec.ofNat 64 acc) (BitVec.ofNat 64 (v.toList.count x)) =
          ok (BitVec.ofNat 64 (acc + v.toList.count x)) := by
        unfold addInt overflowCheck
        simp only [Kind.value, hti _ (show acc < 2 ^ 63 by omega),
          hti _ (show v.toList.count x < 2 ^ 63 by omega), Kind.lo, Kind.hi]
        rw [if_pos (by constructor <;> omega), BitVec.ofNat_add]
      rw [hadd]
      simp only [ok_bind]
      rw [ih _ (by omega), Nat.add_assoc]
  have hc := lanes_calls_count hw d data x
  have hp : (padding w d data).count x ≤ w := by
    refine Nat.le_trans List.count_le_length ?_
    unfold padding; split <;> simp
  have hd : data.count x ≤ data.length := List.count_le_length
  have h := key (calls w d data) 0 (by omega)
  have h' : (do
      let (acc, st') ← (calls w d data).foldlM (fun (p : BitVec 64 × Unit) v => (do
        let m ← eq v (Packed.splat x)
        let k ← sum (m.zipWith (· &&& ·) (Packed.splat 1))
        let s ← addInt c .i p.1 k
        ok (s, ()) : Res (BitVec 64 × Unit))) (0#64, ())
      ok ((⟨data.length, ⟨data⟩, d⟩ : SIMDIter (Slice (BitVec n) w) (BitVec n) w), acc, st')) =
      ok (⟨data.length, ⟨data⟩, d⟩, BitVec.ofNat 64 ((lanes (calls w d data)).count x), ()) := by
    have h0 : (0#64, ()) = (BitVec.ofNat 64 0, ()) := rfl
    rw [h0, h, Nat.zero_add]; rfl
  rw [h']
  simp only [ok_bind]
  rw [hc]

/-- **C154**, partial: the number of elements equal to `x` if no lane of the default vector is `x`.
Missing: defaults which contain `x` (`C154_false`). -/
theorem C154_ones_partial (hw : 0 < w) (hn : 0 < n)
    {eq : Vector (BitVec n) w → Vector (BitVec n) w → Res (Vector (BitVec n) w)} (heq : EqOp eq)
    {ones : Vector (BitVec n) w → Res Nat} (hones : OnesOp ones) (fuel : Nat) (data : List (BitVec n))
    (d : Vector (BitVec n) w) (x : BitVec n) (hd : x ∉ d.toList)
    (hlen : n * (data.length + w) < c.usize) (hfuel : data.length / w < fuel) :
    countOnesEq c fuel eq ones data d x = ok (data.count x) := by
  rw [C154_ones hw hn heq hones fuel data d x hlen hfuel, (List.count_eq_zero_of_not_mem _ :
    (padding w d data).count x = 0), Nat.add_zero]
  unfold padding
  split
  · simp
  · exact fun h => hd (List.mem_of_mem_take h)

/-- **C154**, partial: as `C154_ones_partial`, with `sum_upcast`. -/
theorem C154_sum_partial (hw : 0 < w) (hn : 1 < n) {signed : Bool}
    {eq : Vector (BitVec n) w → Vector (BitVec n) w → Res (Vector (BitVec n) w)} (heq : EqOp eq)
    {sum : Vector (BitVec n) w → Res (BitVec 64)} (hsum : FlagSum signed sum) (fuel : Nat)
    (data : List (BitVec n)) (d : Vector (BitVec n) w) (x : BitVec n) (hd : x ∉ d.toList)
    (hlen : data.length + w < c.usize) (hsize : data.length + w < 2 ^ 63)
    (hfuel : data.length / w < fuel) :
    countSumEq c fuel eq sum data d x = ok (BitVec.ofNat 64 (data.count x)) := by
  rw [C154_sum hw hn heq hsum fuel data d x hlen hsize hfuel, (List.count_eq_zero_of_not_mem _ :
    (padding w d data).count x = 0), Nat.add_zero]
  unfold padding
  split
  · simp
  · exact fun h => hd (List.mem_of_mem_take h)

/-- **C154**: with the same vector `splat(y)` as default, exact precisely if `y` is not the value
counted or there are only complete vectors. -/
theorem C154_iff (hw : 0 < w) (hn : 0 < n)
    {eq : Vector (BitVec n) w → Vector (BitVec n) w → Res (Vector (BitVec n) w)} (heq : EqOp eq)
    {ones : Vector (BitVec n) w → Res Nat} (hones : OnesOp ones) (fuel : Nat) (data : List (BitVec n))
    (y x : BitVec n) (hlen : n * (data.length + w) < c.usize) (hfuel : data.length / w < fuel) :
    countOnesEq c fuel eq ones data (Packed.splat y) x = ok (data.count x) ↔
      y ≠ x ∨ data.length % w = 0 := by
  rw [C154_ones hw hn heq hones fuel data _ x hlen hfuel]
  have hm := Nat.mod_lt data.length hw
  simp only [Res.ok.injEq, Nat.add_eq_left, padding]
  split
  · simp_all
  · rw [Packed.splat, Vector.toList_replicate, List.take_replicate, List.count_replicate]
    by_cases h : y = x
    · simp_all; omega
    · simp_all

/-- **C154**: the versions of the three operations are those of the crate. -/
theorem C154_versions (c : Cfg) :
    (∀ r ∈ eqRows, r.kind ≠ .f → EqOp (n := 8 * r.size) (w := r.width) (binaryInstr r.mm)) ∧
    (∀ r, r ∈ eqRows ∨ r ∈ eqRowsUnknown → r.kind ≠ .f →
      EqOp (n := 8 * r.size) (w := r.width) (binaryFallback (r.fn.eval c r.kind) r.idx)) ∧
    (∀ b idx n w, PopWidth b idx → 256 < c.usize → w * n = b * 8 →
      OnesOp (n := n) (w := w) fun v => popcntShuffle c idx (reinterpret v : Vector (BitVec 8) b)) ∧
    (∀ b n w, b % 8 = 0 → b * 8 < c.usize → w * n = b * 8 →
      OnesOp (n := n) (w := w) fun v => popcntFallback c (reinterpret v : Vector (BitVec 8) b)) ∧
    (∀ (k : Kind) n w, 0 < n → n ≤ 32 → w ≤ 2 ^ 31 →
      FlagSum k.signed (sumUpcastFallback (n := n) (w := w) c k)) ∧
    FlagSum false (sumUpcastU8 (w := 16) c [0, 4]) ∧
    FlagSum false (sumUpcastU8 (w := 32) c [0, 4, 8, 12]) ∧
    (∀ o : I8Ops 16, I8Correct o → FlagSum true (sumUpcastI8 o [0, 4])) ∧
    (∀ o : I8Ops 32, I8Correct o → FlagSum true (sumUpcastI8 o [0, 4, 8, 12])) ∧
    (∀ signed up, UpCorrect signed up → FlagSum signed (sumUpcast16x16 c up)) := by
  have small {w : Nat} (hw : w ≤ 127) (v : Vector (BitVec 8) w) (h : ∀ y ∈ v.toList, y = 0 ∨ y = 1) :
      -128 ≤ total true v ∧ total true v ≤ 127 := by
    have hl : v.toList.length ≤ 127 := by simpa using hw
    have (l : List (BitVec 8)) (h : ∀ y ∈ l, y = 0 ∨ y = 1) :
        0 ≤ (l.map (num true)).sum ∧ (l.map (num true)).sum ≤ l.length := by
      induction l with
      | nil => simp
      | cons y l ih =>
        have ⟨h1, h2⟩ := ih fun z hz => h z (List.mem_cons_of_mem _ hz)
        rw [List.map_cons, List.sum_cons, List.length_cons]
        have hy : num true y = 0 ∨ num true y = 1 := by
          rcases h y List.mem_cons_self with rfl | rfl
          · exact .inl (by decide)
          · exact .inr (by decide)
        omega
    have := this v.toList h
    unfold total
    omega
  refine ⟨fun r hr hk a b => C50_optimized r hr hk a b, fun r hr hk a b => C50_fallback c r hr hk a b,
    fun b idx n w hp hu hs v => C43_optimized hp hu hs v, fun b n w h8 hu hs v => C43_fallback h8 hu hs v,
    fun k n w h0 hn hw v _ => C42_fallback c k h0 hn hw v, fun v _ => C42_u8x16 c v,
    fun v _ => C42_u8x32 c v, fun o ho v h => ?_, fun o ho v h => ?_,
    fun signed up hup v _ => C42_16x16 c signed hup v⟩
  · obtain ⟨r, h1, -, h2⟩ := C42_i8x16 ho v
    exact ⟨r, h1, h2.2 (small (by decide) v h)⟩
  · obtain ⟨r, h1, -, h2⟩ := C42_i8x32 ho v
    exact ⟨r, h1, h2.2 (small (by decide) v h)⟩

/-- **C154** is false: with zero as default value three elements other than zero seem to contain
zeros, with every version of the operations. -/
theorem C154_false (hw : 3 < w) (hn : 2 < n) (hu : n * (3 + w) < c.usize)
    {eq : Vector (BitVec n) w → Vector (BitVec n) w → Res (Vector (BitVec n) w)} (heq : EqOp eq)
    {ones : Vector (BitVec n) w → Res Nat} (hones : OnesOp ones) :
    countOnesEq c 9 eq ones [1, 2, 3] (Packed.splat 0) 0 = ok (w - 3) ∧
      ([1, 2, 3] : List (BitVec n)).count 0 = 0 := by
  have hz (k : Nat) (h0 : 0 < k) (h4 : k < 4) : (BitVec.ofNat n k) ≠ 0 := by
    intro h
    have h2 : 2 ^ 2 < 2 ^ n := Nat.pow_lt_pow_right (by omega) hn
    have := congrArg BitVec.toNat h
    simp at this
    rw [Nat.mod_eq_of_lt (by omega)] at this
    omega
  have hc : ([1, 2, 3] : List (BitVec n)).count 0 = 0 := by
    rw [List.count_eq_zero]
    intro h
    simp only [List.mem_cons, List.not_mem_nil, or_false] at h
    rcases h with h | h | h
    · exact hz 1 (by decide) (by decide) h.symm
    · exact hz 2 (by decide) (by decide) h.symm
    · exact hz 3 (by decide) (by decide) h.symm
  refine ⟨?_, hc⟩
  have h3 : 3 % w = 3 := Nat.mod_eq_of_lt hw
  rw [C154_ones (by omega) (by omega) heq hones 9 _ _ 0 (by simpa using hu)
    (by simp [Nat.div_eq_of_lt hw]), hc]
  simp only [padding, List.length_cons, List.length_nil, Nat.zero_add, Nat.reduceAdd, h3]
  rw [if_neg (by decide), Packed.splat, Vector.toList_replicate, List.take_replicate,
    List.count_replicate]
  simp

/-- The hypotheses can be met: the byte seven among nine bytes, `u8x16` with SSE2. -/
example : countOnesEq release64 9 (binaryInstr eqRows[0].mm)
    (fun v => popcntShuffle release64 [0, 4] (reinterpret v : Vector (BitVec 8) 16))
    [7#8, 1, 7, 2, 3, 4, 5, 6, 7] (Packed.splat 0 : Vector _ eqRows[0].width) 7 = ok 3 :=
  C154_ones_partial (by decide) (by decide) ((C154_versions release64).1 _ (by simp) (by decide))
    ((C154_versions release64).2.2.1 16 [0, 4] 8 16 .sse (by decide) rfl) 9 _ _ 7 (by decide) (by decide)
    (by decide)

example : countSumEq release64 9 (binaryInstr eqRows[0].mm) (sumUpcastU8 (w := 16) release64 [0, 4])
    [7#8, 1, 7, 2, 3, 4, 5, 6, 7] (Packed.splat 0 : Vector _ eqRows[0].width) 7 = ok 3 :=
  C154_sum_partial (by decide) (by decide) ((C154_versions release64).1 _ (by simp) (by decide))
    (C154_versions release64).2.2.2.2.2.1 9 _ _ 7 (by decide) (by decide) (by decide) (by decide)

end Faster
