import Verif.Props.UpcastSum
import Verif.Props.Extreme
import Verif.Props.SoftProduct
/-
C171: the sum of the absolute differences of two slices.
-/
namespace Faster
open Res

variable {n w : Nat} {c : Cfg}

/-- `(xs.simd_iter(dx), ys.simd_iter(dy)).zip().simd_reduce(0i64, |acc, (u, v)| acc +
(u.max(v) - u.min(v)).sum_upcast())` with versions of `max`, `min` (src/intrin/cmp.rs), `-` and `sum_upcast`
(src/intrin/sum.rs:35-47). -/
def sliceAbsDiff (c : Cfg) (fuel : Nat) (vmax vmin vsub : Vector (BitVec n) w → Vector (BitVec n) w → Res (Vector (BitVec n) w))
    (F : Vector (BitVec n) w → Res (BitVec 64)) (xs ys : List (BitVec n)) (dx dy : Vector (BitVec n) w) :
    Res (BitVec 64) := do
  let z ← zip c (simdIter xs dx) (simdIter ys dy, ())
  let (_, acc, _) ← zsimdReduce c fuel z 0#64 ()
    fun _ acc (v : Vector (BitVec n) w × Vector (BitVec n) w × Unit) => do
      let hi ← vmax v.1 v.2.1
      let lo ← vmin v.1 v.2.1
      let t ← vsub hi lo
      let x ← F t
      let s ← addInt c .i acc x
      ok (s, ())
  ok acc

/-- A version of `-` which subtracts lanes where no lane underflows. -/
def UnsignedSub (vsub : Vector (BitVec n) w → Vector (BitVec n) w → Res (Vector (BitVec n) w)) : Prop :=
  ∀ a b : Vector (BitVec n) w, (∀ i (hi : i < w), b[i].toNat ≤ a[i].toNat) → vsub a b = ok (a.zipWith (· - ·) b)

/-- Specification: the distance of two unsigned numbers. -/
def distance (x y : BitVec n) : Nat := ((x.toNat : Int) - y.toNat).natAbs

/-- The distance as an element. -/
def distanceBits (x y : BitVec n) : BitVec n := BitVec.ofNat n (distance x y)

theorem distanceBits_toNat (x y : BitVec n) : (distanceBits x y).toNat = distance x y := by
  have h1 := x.isLt
  have h2 := y.isLt
  unfold distanceBits
  rw [BitVec.toNat_ofNat, Nat.mod_eq_of_lt]
  unfold distance
  omega

theorem extremes_sub {a b p q : BitVec n} (hp : IsExtreme false true a b p) (hq : IsExtreme false false a b q) :
    q.toNat ≤ p.toNat ∧ p - q = distanceBits a b := by
  have h1 := hp.2
  have h2 := hq.2
  simp only [num, Bool.false_eq_true, if_false, if_true] at h1 h2
  have hle : q.toNat ≤ p.toNat := by omega
  refine ⟨hle, ?_⟩
  apply BitVec.eq_of_toNat_eq
  rw [distanceBits_toNat, BitVec.toNat_sub_of_le (BitVec.le_def.2 hle)]
  unfold distance
  omega

/-- The vector of distances. -/
theorem vector_distance {vmax vmin vsub : Vector (BitVec n) w → Vector (BitVec n) w → Res (Vector (BitVec n) w)}
    (hmax : ExtremeOp false true vmax) (hmin : ExtremeOp false false vmin) (hsub : UnsignedSub vsub)
    (u v : Vector (BitVec n) w) :
    (do
      let hi ← vmax u v
      let lo ← vmin u v
      vsub hi lo) = ok (u.zipWith distanceBits v) := by
  obtain ⟨p, e1, h1⟩ := hmax u v
  obtain ⟨q, e2, h2⟩ := hmin u v
  simp only [e1, e2, ok_bind]
  rw [hsub p q fun i hi => (extremes_sub (h1 i hi) (h2 i hi)).1]
  congr 1
  ext1 i hi
  simp only [Vector.getElem_zipWith]
  exact (extremes_sub (h1 i hi) (h2 i hi)).2

/-- Combining the vectors of two passes gives the vectors of a pass over combined elements. -/
theorem calls_combine {α β γ : Type} (hw : 0 < w) (f : α → β → γ) (dx : Vector α w) (dy : Vector β w) {xs : List α}
    {ys : List β} (h : xs.length = ys.length) :
    List.zipWith (fun u v => u.zipWith f v) (calls w dx xs) (calls w dy ys) =
      calls w (dx.zipWith f dy) (List.zipWith f xs ys) := by
  let d := Vector.zipWith (fun a b => (a, b)) dx dy
  have e1 : (xs.zip ys).map Prod.fst = xs := List.map_fst_zip (by omega)
  have e2 : (xs.zip ys).map Prod.snd = ys := List.map_snd_zip (by omega)
  have e3 : d.map Prod.fst = dx := by ext1 i hi; simp [d]
  have e4 : d.map Prod.snd = dy := by ext1 i hi; simp [d]
  have e5 : d.map (fun p => f p.1 p.2) = dx.zipWith f dy := by ext1 i hi; simp [d]
  have e6 : (xs.zip ys).map (fun p => f p.1 p.2) = List.zipWith f xs ys := by
    rw [List.zip, List.map_zipWith]
  have h1 := calls_map hw Prod.fst d (xs.zip ys)
  have h2 := calls_map hw Prod.snd d (xs.zip ys)
  have h3 := calls_map hw (fun p => f p.1 p.2) d (xs.zip ys)
  rw [e1, e3] at h1
  rw [e2, e4] at h2
  rw [e5, e6] at h3
  rw [h1, h2, h3, List.zipWith_map, List.zipWith_self]
  apply List.map_congr_left
  intro v _
  ext1 i hi
  simp

/-- **C171**: the program is the sum of the slice of distances. -/
theorem C171_upcast {vmax vmin vsub : Vector (BitVec n) w → Vector (BitVec n) w → Res (Vector (BitVec n) w)}
    (hmax : ExtremeOp false true vmax) (hmin : ExtremeOp false false vmin) (hsub : UnsignedSub vsub)
    (F : Vector (BitVec n) w → Res (BitVec 64)) (hw : 0 < w) (fuel : Nat) (xs ys : List (BitVec n))
    (dx dy : Vector (BitVec n) w) (h : xs.length = ys.length) (hlen : xs.length + w < c.usize)
    (hfuel : xs.length / w < fuel) :
    sliceAbsDiff c fuel vmax vmin vsub F xs ys dx dy =
      sliceUpcastSum c fuel F (List.zipWith distanceBits xs ys) (dx.zipWith distanceBits dy) := by
  have h1 := C24_zip_reduce (c := c) (xs := xs) (ys := ys) (dx := dx) (dy := dy) fuel 0#64 ()
    (fun _ acc (v : Vector (BitVec n) w × Vector (BitVec n) w × Unit) => (do
      let hi ← vmax v.1 v.2.1
      let lo ← vmin v.1 v.2.1
      let t ← vsub hi lo
      let x ← F t
      let s ← addInt c .i acc x
      ok (s, ()) : Res (BitVec 64 × Unit))) h hw hlen hfuel
  have key (us vs : List (Vector (BitVec n) w)) : ∀ p : BitVec 64 × Unit,
      (List.zipWith (fun u v => (u, v, ())) us vs).foldlM
        (fun (p : BitVec 64 × Unit) (v : Vector (BitVec n) w × Vector (BitVec n) w × Unit) => (do
          let hi ← vmax v.1 v.2.1
          let lo ← vmin v.1 v.2.1
          let t ← vsub hi lo
          let x ← F t
          let s ← addInt c .i p.1 x
          ok (s, ()) : Res (BitVec 64 × Unit))) p =
      (List.zipWith (fun u v : Vector (BitVec n) w => u.zipWith distanceBits v) us vs).foldlM
        (fun (p : BitVec 64 × Unit) v => (do
          let x ← F v
          let s ← addInt c .i p.1 x
          ok (s, ()) : Res (BitVec 64 × Unit))) p := by
    induction us generalizing vs with
    | nil => intro p; simp
    | cons u us ih =>
      intro p
      match vs with
      | [] => simp
      | v :: vs =>
        rw [List.zipWith_cons_cons, List.zipWith_cons_cons, List.foldlM_cons, List.foldlM_cons]
        have hd := vector_distance hmax hmin hsub u v
        have hc : (do
            let hi ← vmax u v
            let lo ← vmin u v
            let t ← vsub hi lo
            let x ← F t
            let s ← addInt c .i p.1 x
            ok (s, ()) : Res (BitVec 64 × Unit)) = (do
            let x ← F (u.zipWith distanceBits v)
            let s ← addInt c .i p.1 x
            ok (s, ())) := by
          have := congrArg (fun r => r >>= fun t => (do
            let x ← F t
            let s ← addInt c .i p.1 x
            ok (s, ()) : Res (BitVec 64 × Unit))) hd
          simpa only [bind_assoc, ok_bind] using this
        simp only [hc]
        congr 1
        funext q
        exact ih vs q
  rw [key, calls_combine hw distanceBits dx dy h] at h1
  have hl : (List.zipWith distanceBits xs ys).length = xs.length := by simp [h]
  unfold sliceAbsDiff sliceUpcastSum
  rw [C03_reduce_fold c fuel _ _ 0#64 () _ hw (by rw [hl]; exact hlen) (by rw [hl]; exact hfuel)]
  have h2 := congrArg (· >>= fun p => ok p.1) h1
  simp only [bind_assoc, ok_bind] at h2 ⊢
  exact h2

/-- **C171**: with one default vector for both slices the result is the exact sum of the distances, for lanes of at
most 32 bits, in debug and release builds. -/
theorem C171_exact {vmax vmin vsub : Vector (BitVec n) w → Vector (BitVec n) w → Res (Vector (BitVec n) w)}
    (hmax : ExtremeOp false true vmax) (hmin : ExtremeOp false false vmin) (hsub : UnsignedSub vsub)
    {F : Vector (BitVec n) w → Res (BitVec 64)} (hF : UpSumOp false F) (hn : n ≤ 32) (hw : 0 < w) (fuel : Nat)
    (xs ys : List (BitVec n)) (d : Vector (BitVec n) w) (h : xs.length = ys.length) (hsize : xs.length + w < 2 ^ 31)
    (hlen : xs.length + w < c.usize) (hfuel : xs.length / w < fuel) :
    ∃ r, sliceAbsDiff c fuel vmax vmin vsub F xs ys d d = ok r ∧ r.toInt = ((List.zipWith distance xs ys).sum : Nat) := by
  have hl : (List.zipWith distanceBits xs ys).length = xs.length := by simp [h]
  have hd : d.zipWith distanceBits d = Vector.replicate w 0 := by
    ext1 i hi
    simp [distanceBits, distance]
  have hp : listTotal false (padding w (Vector.replicate w 0#n) (List.zipWith distanceBits xs ys)) = 0 := by
    have h0 (k : Nat) : listTotal false (List.replicate k 0#n) = 0 := by
      induction k with
      | zero => rfl
      | succ k ih => rw [List.replicate_succ, show listTotal false (0#n :: List.replicate k 0#n) =
          num false 0#n + listTotal false (List.replicate k 0#n) by simp [listTotal], ih]; simp [num]
    unfold padding
    split
    · rfl
    · rw [Vector.toList_replicate, List.take_replicate]; exact h0 _
  obtain ⟨r, h1, h2⟩ := C165_partial (c := c) hF hn hw fuel (List.zipWith distanceBits xs ys) (Vector.replicate w 0#n) hp
    (by rw [hl]; exact hsize) (by rw [hl]; exact hlen) (by rw [hl]; exact hfuel)
  refine ⟨r, ?_, ?_⟩
  · rw [C171_upcast hmax hmin hsub F hw fuel xs ys d d h hlen hfuel, hd]
    exact h1
  · rw [h2]
    clear h1 h2 hp hl hlen hsize hfuel h
    induction xs generalizing ys with
    | nil => rfl
    | cons x xs ih => cases ys with
      | nil => rfl
      | cons y ys =>
        have := ih ys
        simp only [List.zipWith_cons_cons, List.sum_cons, listTotal, List.map_cons, num, Bool.false_eq_true, if_false,
          distanceBits_toNat] at this ⊢
        rw [this]
        push_cast
        rfl

/-- **C171**: with other defaults the distances of the default lanes which fill the last vectors are added. -/
theorem C171_defaults {vmax vmin vsub : Vector (BitVec n) w → Vector (BitVec n) w → Res (Vector (BitVec n) w)}
    (hmax : ExtremeOp false true vmax) (hmin : ExtremeOp false false vmin) (hsub : UnsignedSub vsub)
    {F : Vector (BitVec n) w → Res (BitVec 64)} (hF : UpSumOp false F) (hw : 0 < w) (fuel : Nat)
    (xs ys : List (BitVec n)) (dx dy : Vector (BitVec n) w) (h : xs.length = ys.length)
    (hsum : listAbs false (List.zipWith distanceBits xs ys) +
      listAbs false (padding w (dx.zipWith distanceBits dy) (List.zipWith distanceBits xs ys)) < 2 ^ 63)
    (hlen : xs.length + w < c.usize) (hfuel : xs.length / w < fuel) :
    ∃ r, sliceAbsDiff c fuel vmax vmin vsub F xs ys dx dy = ok r ∧
      r.toInt = listTotal false (List.zipWith distanceBits xs ys) +
        listTotal false (padding w (dx.zipWith distanceBits dy) (List.zipWith distanceBits xs ys)) := by
  have hl : (List.zipWith distanceBits xs ys).length = xs.length := by simp [h]
  rw [C171_upcast hmax hmin hsub F hw fuel xs ys dx dy h hlen hfuel]
  exact C165_sum hF hw fuel _ _ hsum (by rw [hl]; exact hlen) (by rw [hl]; exact hfuel)

/-- **C171**: the operators of native vectors, which wrap, and of software vectors, which check in debug builds. -/
theorem C171_versions (c : Cfg) :
    UnsignedSub (fun a b : Vector (BitVec n) w => ok (a.zipWith (· - ·) b)) ∧
    UnsignedSub (Soft.binop (subInt c .u) 0 : Vector (BitVec n) w → Vector (BitVec n) w → Res (Vector (BitVec n) w)) := by
  refine ⟨fun a b _ => rfl, fun a b h => C59_lanes _ _ _ _ _ fun i hi => ?_⟩
  have h1 := h i hi
  have h2 := a[i].isLt
  unfold subInt
  rw [overflowCheck_fits]
  · simp
  · simp only [Kind.lo, Kind.hi, Kind.value]
    have : (2 ^ n : Int) = ((2 ^ n : Nat) : Int) := by push_cast; rfl
    omega

/-- The hypotheses can be met: `u8x16` with SSE2, in a debug build. -/
example : ∃ r, sliceAbsDiff debug64 9 (n := 8) (w := 16) (binaryInstr cmpRows[1].mm) (binaryInstr cmpRows[0].mm)
    (fun a b => ok (a.zipWith (· - ·) b)) (sumUpcastU8 debug64 [0, 4]) [200, 3, 0] [1, 5, 255] (Packed.splat 9)
    (Packed.splat 9) = ok r ∧ r.toInt = 456 :=
  C171_exact (c := debug64) (n := 8) (w := 16) ((C155_versions debug64).1 cmpRows[1] (by simp) (by decide))
    ((C155_versions debug64).1 cmpRows[0] (by simp) (by decide)) (C171_versions debug64).1 (C165_versions debug64).2.1
    (by decide) (by decide) 9 [200, 3, 0] [1, 5, 255] _ rfl (by decide) (by decide) (by decide)

/-- With different defaults the distance of the missing lanes is added: two and three ones. -/
example : sliceAbsDiff release64 9 (n := 8) (w := 4) (fun a b => ok (a.zipWith (scalarExtreme false true) b))
    (fun a b => ok (a.zipWith (scalarExtreme false false) b))
    (fun a b => ok (a.zipWith (· - ·) b)) (sumUpcastFallback release64 .u) [7] [5] #v[0, 0, 0, 0] #v[1, 1, 1, 1] =
    ok 5 := by decide +kernel

end Faster
