import Verif.Props.Stride
import Mathlib.Algebra.BigOperators.Intervals
import Mathlib.Algebra.BigOperators.Fin
/-
C153: reducing the strided iterators of a slice one after the other.
-/
namespace Faster
open Res

variable {M : Type} {w : Nat} {c : Cfg}

/-- `for it in slice.stride(s, &[splat(e); s]) { acc = it.simd_reduce(acc, op) }`, then the lanes of
the accumulator with `scalar_reduce`. -/
def reduceStrides [Packable M] (c : Cfg) (fuel : Nat) (w : Nat) (l : List M) (s : Nat) (op : M → M → M) (e : M) : Res M := do
  let its ← strideInto (⟨l⟩ : Slice M w) s (List.replicate s (Packed.splat e : Vector M w))
  let acc ← its.foldlM (fun (acc : Vector M w) (it : PackedStride (Slice M w) M w) => do
    let (_, acc, _) ← simdReduce c fuel it acc () fun _ acc (v : Vector M w) => ok (acc.zipWith op v, ())
    ok acc) (Packed.splat e)
  Packed.scalarReduce acc e fun a x => ok (op a x)

section
variable (op : M → M → M) (e : M) (hassoc : ∀ a b c, op (op a b) c = op a (op b c))
  (hcomm : ∀ a b, op a b = op b a) (hid : ∀ a, op e a = a)
include hassoc hcomm hid

/-- What a pass over a list adds to the accumulator, all lanes taken together. -/
theorem calls_value (hw : 0 < w) (data : List M) (acc : Vector M w) :
    ((calls w (Packed.splat e) data).foldl (fun acc v => acc.zipWith op v) acc).toList.foldl op e =
      op (acc.toList.foldl op e) (data.foldl op e) := by
  have hid' : ∀ a, op a e = a := fun a => by rw [hcomm, hid]
  have he := foldl_op op e hassoc hid hid'
  have step : ∀ (vs : List (Vector M w)) (acc : Vector M w),
      (vs.foldl (fun acc v => acc.zipWith op v) acc).toList.foldl op e =
        op (acc.toList.foldl op e) ((lanes vs).foldl op e) := by
    intro vs
    induction vs with
    | nil => intro acc; simp [hid']
    | cons v vs ih =>
      intro acc
      rw [List.foldl_cons, ih, lanes_cons, List.foldl_append, he (lanes vs) (List.foldl op e _),
        ← hassoc]
      congr 1
      have : (acc.zipWith op v).toList = List.zipWith op acc.toList v.toList := by
        apply List.ext_getElem <;> simp
      rw [this, foldl_zipWith op e hassoc hcomm hid _ _ (by simp)]
  have hrep : ∀ n, (List.replicate n e).foldl op e = e := by
    intro n; induction n with
    | zero => rfl
    | succ n ih => rw [List.replicate_succ, List.foldl_cons, hid, ih]
  rw [step]
  congr 1
  have key := lanes_fullWindows hw data
  have hl := leftover_length w data
  have hm := Nat.mod_lt data.length hw
  conv => rhs; rw [← key]
  rw [calls, lanes_append, List.foldl_append, List.foldl_append]
  split
  · have : leftover w data = [] := List.eq_nil_of_length_eq_zero (by omega)
    rw [this]; rfl
  · rw [he, he (leftover w data)]
    congr 1
    have hpad := padFront_drop (Vector.replicate w e) (leftover w data) (by omega)
    have htake : (padFront (Vector.replicate w e) (leftover w data)).toList.take
        (w - (leftover w data).length) = List.replicate (w - (leftover w data).length) e := by
      apply List.ext_getElem
      · simp
      · intro i h1 h2
        simp only [List.length_replicate] at h2
        simp only [List.getElem_take, Vector.getElem_toList, List.getElem_replicate]
        rw [padFront_getElem _ _ _ _ (by omega), dif_pos h2]
        simp
    rw [lanes_cons, lanes_nil, List.append_nil, Packed.splat,
      ← List.take_append_drop (w - (leftover w data).length)
        (padFront (Vector.replicate w e) (leftover w data)).toList, hpad, htake,
      List.foldl_append, hrep]

theorem strides_value [Packable M] (hw : 0 < w) (l : List M) (s fuel : Nat)
    (hu : l.length + s * (w + 1) < c.usize) (hfuel : l.length / s / w < fuel) (ks : List (Fin s))
    (acc : Vector M w) :
    ∃ acc' : Vector M w,
      (ks.map fun k => strideAt (⟨l⟩ : Slice M w) s k.val (Packed.splat e)).foldlM (fun (acc : Vector M w) (it : PackedStride (Slice M w) M w) => do
        let (_, acc, _) ← simdReduce c fuel it acc () fun _ acc (v : Vector M w) => ok (acc.zipWith op v, ())
        ok acc) acc = ok acc' ∧
      acc'.toList.foldl op e = op (acc.toList.foldl op e)
        ((ks.flatMap fun k => strided s k.val l k.isLt).foldl op e) := by
  have hid' : ∀ a, op a e = a := fun a => by rw [hcomm, hid]
  induction ks generalizing acc with
  | nil => exact ⟨acc, rfl, by simp [hid']⟩
  | cons k ks ih =>
    obtain ⟨acc', h1, h2⟩ := ih ((calls w (Packed.splat e) (strided s k.val l k.isLt)).foldl
      (fun acc v => acc.zipWith op v) acc)
    refine ⟨acc', ?_, ?_⟩
    · rw [List.map_cons, List.foldlM_cons, C25_stride_reduce c fuel l k.isLt (Packed.splat e) acc () _ hw
        hu hfuel]
      have := foldlM_pure (fun (acc v : Vector M w) => acc.zipWith op v)
        (calls w (Packed.splat e) (strided s k.val l k.isLt)) acc
      rw [← h1]
      refine (congrArg (fun r => ((r >>= fun p => ok ((⟨⟨l⟩, k.val + s * (l.length / s), k.val, s,
        Packed.splat e⟩ : PackedStride (Slice M w) M w), p.1, p.2)) >>= fun q => ok q.2.1) >>= _) this).trans rfl
    · rw [h2, calls_value op e hassoc hcomm hid hw, List.flatMap_cons, List.foldl_append,
        foldl_op op e hassoc hid hid' _ (List.foldl op e _), hassoc]

/-- The elements of all strides together are those of the complete groups. -/
theorem strides_all (l : List M) (s : Nat) :
    ((List.finRange s).flatMap fun k => strided s k.val l k.isLt).foldl op e =
      (l.take (s * (l.length / s))).foldl op e := by
  have hid' : ∀ a, op a e = a := fun a => by rw [hcomm, hid]
  let _ : CommMonoid M :=
    { mul := op, one := e, mul_assoc := hassoc, mul_comm := hcomm, one_mul := hid, mul_one := hid' }
  have hprod (l : List M) : l.foldl op e = l.prod := (List.prod_eq_foldl (xs := l)).symm
  rw [hprod, hprod]
  let h : Nat → M := fun j => l[j]?.getD e
  have h1 (k : Fin s) : (strided s k.val l k.isLt).prod =
      ∏ i ∈ Finset.range (l.length / s), h (k.val + s * i) := by
    rw [← Fin.prod_univ_eq_prod_range, ← List.prod_ofFn]
    congr 1
    apply List.ext_getElem
    · simp
    · intro i a b
      simp at a
      have := strided_index k.isLt a
      simp [strided_getElem, h, this]
  have h2 : (l.take (s * (l.length / s))).prod = ∏ j ∈ Finset.range (s * (l.length / s)), h j := by
    rw [← Fin.prod_univ_eq_prod_range, ← List.prod_ofFn]
    congr 1
    have := Nat.mul_div_le l.length s
    apply List.ext_getElem
    · simp; omega
    · intro i a b
      simp at a
      simp [h, a.2]
  rw [List.flatMap, List.prod_flatten, List.map_map, h2]
  have h3 : ((List.finRange s).map (List.prod ∘ fun k => strided s k.val l k.isLt)).prod =
      ∏ k ∈ Finset.range s, ∏ i ∈ Finset.range (l.length / s), h (k + s * i) := by
    rw [← Fin.prod_univ_eq_prod_range (fun k => ∏ i ∈ Finset.range (l.length / s), h (k + s * i)),
      ← List.prod_ofFn, List.ofFn_eq_map]
    congr 1
    apply List.map_congr_left
    intro k _
    exact h1 k
  rw [h3, Finset.prod_comm]
  generalize l.length / s = m
  induction m with
  | zero => simp
  | succ m ih =>
    rw [Finset.prod_range_succ, ih, Nat.mul_succ, Finset.prod_range_add]
    congr 1
    exact Finset.prod_congr rfl fun k _ => by rw [Nat.add_comm]

/-- **C153**: reducing all strides of a slice in turn gives the reduction of its complete groups of
`s` elements, for every commutative monoid. -/
theorem C153_reduce [Packable M] (hw : 0 < w) (l : List M) (s fuel : Nat)
    (hu : l.length + s * (w + 1) < c.usize) (hfuel : l.length / s / w < fuel) :
    reduceStrides c fuel w l s op e = ok ((l.take (s * (l.length / s))).foldl op e) := by
  obtain ⟨its, h1, h2, h3⟩ := C25_stride_into l s (List.replicate s (Packed.splat e : Vector M w))
    (by simp)
  have hits : its = (List.finRange s).map fun k => strideAt (⟨l⟩ : Slice M w) s k.val (Packed.splat e) := by
    apply List.ext_getElem
    · simp [h2]
    · intro k a b
      rw [h3 k (by omega) a]
      simp
  obtain ⟨acc, h4, h5⟩ := strides_value (c := c) op e hassoc hcomm hid hw l s fuel hu hfuel
    (List.finRange s) (Packed.splat e)
  unfold reduceStrides
  rw [h1]
  simp only [ok_bind]
  rw [hits, h4]
  simp only [ok_bind, Packed.scalarReduce]
  rw [scalarReduceLoop_ok _ _ w 0 e (by omega), List.drop_zero, foldlM_ok, h5, strides_all op e hassoc hcomm hid]
  have hrep : ∀ n, (List.replicate n e).foldl op e = e := by
    intro n; induction n with
    | zero => rfl
    | succ n ih => rw [List.replicate_succ, List.foldl_cons, hid, ih]
  rw [Packed.splat, Vector.toList_replicate, hrep, hid]

/-- **C153**, partial: the reduction of the slice, if the stride divides its length. Missing: other
lengths (`C153_false`), where the last elements are in no stride. -/
theorem C153_partial [Packable M] (hw : 0 < w) (l : List M) (s fuel : Nat) (hs : l.length % s = 0)
    (hu : l.length + s * (w + 1) < c.usize) (hfuel : l.length / s / w < fuel) :
    reduceStrides c fuel w l s op e = ok (l.foldl op e) := by
  rw [C153_reduce op e hassoc hcomm hid hw l s fuel hu hfuel, List.take_of_length_le]
  have := Nat.div_add_mod l.length s
  omega

/-- **C153**: with inverses, exactly if the elements in no stride reduce to the identity. -/
theorem C153_iff [Packable M] (hw : 0 < w) (l : List M) (s fuel : Nat) (hcancel : ∀ a b, op a b = a → b = e)
    (hu : l.length + s * (w + 1) < c.usize) (hfuel : l.length / s / w < fuel) :
    reduceStrides c fuel w l s op e = ok (l.foldl op e) ↔
      (l.drop (s * (l.length / s))).foldl op e = e := by
  have hid' : ∀ a, op a e = a := fun a => by rw [hcomm, hid]
  rw [C153_reduce op e hassoc hcomm hid hw l s fuel hu hfuel]
  conv => lhs; rhs; rw [← List.take_append_drop (s * (l.length / s)) l, List.foldl_append,
    foldl_op op e hassoc hid hid' _ (List.foldl op e _)]
  simp only [Res.ok.injEq]
  constructor
  · intro h; exact hcancel _ _ h.symm
  · intro h; rw [h, hid']

end

/-- **C153** is false: the fifth of five elements is in neither of two strides. -/
theorem C153_false : reduceStrides release64 9 2 [1#8, 2, 3, 4, 5] 2 (· + ·) 0 = ok 10#8 ∧
    [1#8, 2, 3, 4, 5].foldl (· + ·) 0 = 15#8 := by
  decide +kernel

example : reduceStrides release64 9 4 [1#8, 2, 3, 4, 5, 6] 3 (· + ·) 0 = ok 21#8 :=
  C153_partial (· + ·) 0 BitVec.add_assoc BitVec.add_comm BitVec.zero_add (by decide) _ 3 9 (by decide)
    (by decide) (by decide)

end Faster
