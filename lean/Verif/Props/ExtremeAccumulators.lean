import Verif.Props.SatAccumulators
import Verif.Props.Extreme
import Verif.Props.Product
/-
C177: products, minima and maxima in unrolled loops with several accumulators.
-/
namespace Faster
open Res

variable {n w : Nat} {c : Cfg}

/-- As `sliceProduct`, in a loop over the chunks of `unroll(amt)` (src/iters.rs:386-403) with `m` accumulators. -/
def productAccs (c : Cfg) (fuel amt m : Nat) (k : Kind) (w : Nat) (data : List (BitVec n)) : Res (BitVec n) := do
  let (_, acc) ← unrolledAccs c fuel amt m (simdIter data (Packed.splat 1 : Vector (BitVec n) w))
    (fun a b => a.zipWith (· * ·) b) (Packed.splat 1) id
  Packed.product 1 (mulInt c k) acc

/-- As `sliceExtreme`, in a loop over the chunks of `unroll(amt)` with `m` accumulators. -/
def extremeAccs (c : Cfg) (fuel amt m : Nat)
    (F : Vector (BitVec n) w → Vector (BitVec n) w → Res (Vector (BitVec n) w)) (signed big : Bool)
    (data : List (BitVec n)) (d start : Vector (BitVec n) w) (s0 : BitVec n) : Res (BitVec n) := do
  let (_, acc) ← unrolledAccsM c fuel amt m (simdIter data d) F start id
  Packed.scalarReduce acc s0 fun a x => ok (scalarExtreme signed big a x)

/-- **C177**, products: any number of accumulators gives what one gives, in all builds. -/
theorem C177_product {k : Kind} (hw : 0 < w) (fuel amt m : Nat) (data : List (BitVec n)) (ha0 : 0 < amt) (ha : amt ≤ 8)
    (hm : amt ≤ m) (hlen : data.length + w < c.usize) (hfuel : data.length / w < fuel) :
    productAccs c fuel amt m k w data = sliceProduct c fuel k w data ∧
    (productAccs c fuel amt m k w data = ok (data.foldl (· * ·) 1) ∨
      (c.debug = true ∧ productAccs c fuel amt m k w data = Res.panic)) := by
  suffices h : productAccs c fuel amt m k w data = sliceProduct c fuel k w data by
    exact ⟨h, by rw [h]; exact C160_wrapped hw fuel data hlen hfuel⟩
  have h := C170_slice (c := c) (op := fun a b : Vector (BitVec n) w => a.zipWith (· * ·) b) (e := Packed.splat 1)
    (g := id) (by intro x y z; ext i hi; simp [BitVec.mul_assoc]) (by intro x y; ext i hi; simp [BitVec.mul_comm])
    (by ext1 i hi; rw [Vector.getElem_zipWith, Packed.splat, Vector.getElem_replicate]; exact BitVec.one_mul _)
    data (Packed.splat 1) 0 amt m fuel hw hlen (by omega) ha0 ha hm (by simpa using hfuel)
  unfold productAccs sliceProduct simdIter
  rw [h, bind_assoc]
  rfl

theorem scalarExtreme_num (signed big : Bool) (a x : BitVec n) : num signed (scalarExtreme signed big a x) =
    if big then max (num signed a) (num signed x) else min (num signed a) (num signed x) := by
  unfold scalarExtreme
  cases big <;> simp only [Bool.false_eq_true, if_false, if_true] <;> split <;> omega

/-- All versions of `min` and `max` are the scalar one in every lane. -/
theorem extremeOp_eq {signed big : Bool} {F : Vector (BitVec n) w → Vector (BitVec n) w → Res (Vector (BitVec n) w)}
    (hF : ExtremeOp signed big F) (a b : Vector (BitVec n) w) : F a b = ok (a.zipWith (scalarExtreme signed big) b) := by
  obtain ⟨v, h1, h2⟩ := hF a b
  rw [h1]
  congr 1
  ext1 i hi
  rw [Vector.getElem_zipWith]
  exact num_inj signed ((h2 i hi).2.trans (scalarExtreme_num signed big _ _).symm)

/-- **C177**, minima and maxima: any number of accumulators gives what one gives, whatever they begin with. -/
theorem C177_extreme {signed big : Bool} (hw : 0 < w)
    {F : Vector (BitVec n) w → Vector (BitVec n) w → Res (Vector (BitVec n) w)} (hF : ExtremeOp signed big F)
    (fuel amt m : Nat) (data : List (BitVec n)) (d start : Vector (BitVec n) w) (s0 : BitVec n) (ha0 : 0 < amt) (ha : amt ≤ 8) (hm : amt ≤ m)
    (hlen : data.length + w < c.usize) (hfuel : data.length / w < fuel) :
    extremeAccs c fuel amt m F signed big data d start s0 = sliceExtreme c fuel F signed big data d start s0 := by
  have hassoc : ∀ a b c : BitVec n, scalarExtreme signed big (scalarExtreme signed big a b) c =
      scalarExtreme signed big a (scalarExtreme signed big b c) := by
    intro a b c
    apply num_inj signed
    simp only [scalarExtreme_num]
    cases big <;> simp only [Bool.false_eq_true, if_false, if_true] <;> omega
  have hcomm : ∀ a b : BitVec n, scalarExtreme signed big a b = scalarExtreme signed big b a := by
    intro a b
    apply num_inj signed
    simp only [scalarExtreme_num]
    cases big <;> simp only [Bool.false_eq_true, if_false, if_true] <;> omega
  have hidem : ∀ a : BitVec n, scalarExtreme signed big a a = a := by
    intro a
    unfold scalarExtreme
    cases big <;> simp
  have hF' := extremeOp_eq hF
  have h3 := C03_reduce_foldl c fuel data d start
    (fun (a v : Vector (BitVec n) w) => a.zipWith (scalarExtreme signed big) v) hw hlen hfuel
  have h4 := C170_slice (c := c) (op := fun a b : Vector (BitVec n) w => a.zipWith (scalarExtreme signed big) b)
    (e := start) (g := id) (by intro x y z; ext i hi; simp [hassoc])
    (by intro x y; ext i hi; simp [hcomm x[i]])
    (by ext1 i hi; rw [Vector.getElem_zipWith, hidem]) data d 0 amt m
    fuel hw hlen (by omega) ha0 ha hm (by simpa using hfuel)
  unfold simdIter at h3
  simp only [id] at h4
  rw [h3] at h4
  have h5 := unrolledAccsM_ok (g := id) hF' start fuel amt m _ h4
  unfold extremeAccs sliceExtreme simdIter
  simp only [hF', ok_bind]
  rw [h3, h5]
  rfl

/-- Accumulators which begin with a number which is not neutral: both loops return it. -/
example : extremeAccs debug64 9 2 3 (n := 8) (w := 2) (fun a b => ok (a.zipWith (scalarExtreme false false) b)) false false
      [7, 5, 6, 9, 8] (Packed.splat 255) (Packed.splat 4) 255 = ok 4 ∧
    sliceExtreme debug64 9 (n := 8) (w := 2) (fun a b => ok (a.zipWith (scalarExtreme false false) b)) false false
      [7, 5, 6, 9, 8] (Packed.splat 255) (Packed.splat 4) 255 = ok 4 := by decide +kernel

/-- **C177**: with the neutral number as default too, the smallest or largest element of a slice which is not empty. -/
theorem C177_slice {signed big : Bool} (hw : 0 < w)
    {F : Vector (BitVec n) w → Vector (BitVec n) w → Res (Vector (BitVec n) w)} (hF : ExtremeOp signed big F)
    (fuel amt m : Nat) (data : List (BitVec n)) (z : BitVec n) (hz : ∀ x, NotBeyond signed big x z) (hne : data ≠ [])
    (ha0 : 0 < amt) (ha : amt ≤ 8) (hm : amt ≤ m) (hlen : data.length + w < c.usize) (hfuel : data.length / w < fuel) :
    ∃ r, extremeAccs c fuel amt m F signed big data (Packed.splat z) (Packed.splat z) z = ok r ∧
      ExtremeOf signed big data r := by
  rw [C177_extreme hw hF fuel amt m data _ _ z ha0 ha hm hlen hfuel]
  exact C155_partial hw hF fuel data z hz hne hlen hfuel

/-- The hypotheses can be met: `u8x16::min` with SSE2; and eleven factors with three accumulators. -/
example : (∃ r, extremeAccs debug64 9 2 2 (n := 8) (w := 16) (binaryInstr cmpRows[0].mm) false false [7, 5, 6]
      (Packed.splat 255) (Packed.splat 255) 255 = ok r ∧ ExtremeOf false false [7, 5, 6] r) ∧
    productAccs debug64 9 3 3 .u 2 [1#8, 2, 1, 3, 1, 1, 5, 1, 1, 1, 2] = ok 60 :=
  ⟨C177_slice (n := 8) (w := 16) (by decide) ((C155_versions debug64).1 cmpRows[0] (by simp) (by decide)) 9 2 2 _ _
    (by unfold NotBeyond; decide +kernel) (by decide) (by decide) (by decide) (by decide) (by decide) (by decide),
    by decide +kernel⟩

end Faster
