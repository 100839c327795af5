import Verif.Props.Zip
import Verif.Props.ForEach
import Verif.Props.Sum
import Verif.Props.Rounding
import Verif.Props.Shuffle
/-
C70, C71, C72, C73: the iterators and the vector operations together, as in the
examples of the documentation (src/lib.rs:1-134).
-/
namespace Faster
open Res SIMDSized SIMDIterable SIMDIterator

/-! ### Vocabulary -/

/-- The closure `|v| F(v)` around a vector operation. -/
def useOp {α β : Type} {w : Nat} (F : Vector α w → Res (Vector β w)) :
    FnMut Unit (Vector α w) (Vector β w) := fun _ v => do
  let u ← F v
  ok (u, ())

/-- `F` never fails and relates every lane to the same lane of its result. -/
def LaneOp1 {α β : Type} {w : Nat} (R : α → β → Prop) (F : Vector α w → Res (Vector β w)) : Prop :=
  ∀ v, ∃ u, F v = ok u ∧ ∀ i (hi : i < w), R v[i] u[i]

/-- Same length, and elements at the same index are related. -/
def Pointwise {α β : Type} (R : α → β → Prop) (xs : List α) (ys : List β) : Prop :=
  ys.length = xs.length ∧ ∀ i (h : i < xs.length) (h' : i < ys.length), R xs[i] ys[i]

/-! ### Lemmas -/

theorem pointwise_append {α β : Type} {R : α → β → Prop} {a a' : List α} {b b' : List β}
    (h : Pointwise R a b) (h' : Pointwise R a' b') : Pointwise R (a ++ a') (b ++ b') := by
  obtain ⟨h1, h2⟩ := h
  obtain ⟨h1', h2'⟩ := h'
  refine ⟨by simp [h1, h1'], fun i hi hi' => ?_⟩
  rw [List.getElem_append, List.getElem_append]
  split
  · rw [dif_pos (by omega)]; exact h2 i _ _
  · rw [dif_neg (by omega)]
    have := h2' (i - a.length) (by simp at hi; omega) (by simp at hi'; omega)
    simp only [h1]
    exact this

theorem pointwise_drop {α β : Type} {R : α → β → Prop} {a : List α} {b : List β} (k : Nat)
    (h : Pointwise R a b) : Pointwise R (a.drop k) (b.drop k) := by
  obtain ⟨h1, h2⟩ := h
  refine ⟨by simp [h1], fun i hi hi' => ?_⟩
  rw [List.getElem_drop, List.getElem_drop]
  exact h2 _ _ _

theorem pointwise_lanes {α β : Type} {w : Nat} {R : α → β → Prop} {G : Vector α w → Vector β w}
    (hG : ∀ v i (hi : i < w), R v[i] (G v)[i]) (vs : List (Vector α w)) :
    Pointwise R (lanes vs) (lanes (vs.map G)) := by
  induction vs with
  | nil => exact ⟨rfl, fun i hi => absurd hi (by simp [lanes])⟩
  | cons v vs ih =>
    simp only [lanes, List.map_cons, List.flatMap_cons] at ih ⊢
    refine pointwise_append ⟨by simp, fun i hi hi' => ?_⟩ ih
    simpa using hG v i (by simpa using hi)

theorem pointwise_unpad {α β : Type} {w : Nat} {R : α → β → Prop} {G : Vector α w → Vector β w}
    (hG : ∀ v i (hi : i < w), R v[i] (G v)[i]) (p : Nat) (vs : List (Vector α w)) :
    Pointwise R (unpad p vs) (unpad p (vs.map G)) := by
  rcases List.eq_nil_or_concat vs with rfl | ⟨l, u, rfl⟩
  · exact ⟨rfl, fun i hi => absurd hi (by simp [unpad, lanes])⟩
  · rw [List.concat_eq_append, List.map_append, List.map_cons, List.map_nil, unpad_concat,
      unpad_concat]
    refine pointwise_append (pointwise_lanes hG l) (pointwise_drop p ⟨by simp, fun i hi hi' => ?_⟩)
    simpa using hG u i (by simpa using hi)

/-- A total vector operation is a pure closure. -/
theorem laneOp1_pure {α β : Type} {w : Nat} {R : α → β → Prop} {F : Vector α w → Res (Vector β w)}
    (h : LaneOp1 R F) : ∃ G : Vector α w → Vector β w, useOp F = pureFn G ∧
      ∀ v i (hi : i < w), R v[i] (G v)[i] := by
  choose G hG using h
  refine ⟨G, ?_, fun v => (hG v).2⟩
  funext st v
  simp [useOp, pureFn, (hG v).1]

/-- A relation which is a function makes the output the scalar map. -/
theorem pointwise_map {α β : Type} {g : α → β} {xs : List α} {ys : List β}
    (h : Pointwise (fun x y => y = g x) xs ys) : ys = xs.map g := by
  obtain ⟨h1, h2⟩ := h
  apply List.ext_getElem
  · simpa using h1
  · intro i hi hi'
    rw [List.getElem_map]
    exact h2 i (by omega) hi

/-! ### C70 -/

section map
variable {α β : Type} [Packable α] [Packable β] {w : Nat}

/-- **C70.** Mapping a vector operation which works lane by lane over a slice
and collecting returns one element per element of the slice, each related to
the element at its index as the operation relates lanes. -/
theorem C70_collect {R : α → β → Prop} {F : Vector α w → Res (Vector β w)} (hF : LaneOp1 R F)
    (c : Cfg) (fuel : Nat) (data : List α) (d : Vector α w)
    (hw : 0 < w) (hs : 0 < Packable.size β) (hsize : Packable.size α = Packable.size β)
    (hlen : data.length + w < c.usize)
    (hvec : w * Packable.size α < c.usize) (hfuel : data.length / w < fuel) :
    ∃ out, (do
      let (_, out) ← scalarCollect c fuel (simdMap (simdIter data d) () (useOp F))
      ok out) = ok (out.map some) ∧ Pointwise R data out := by
  obtain ⟨G, hG, hR⟩ := laneOp1_pure hF
  have hdm := Nat.div_mul_le_self data.length w
  refine ⟨unpad ((w - data.length % w) % w) ((calls w d data).map G), ?_, ?_⟩
  · rw [hG, C05_collect_any_closure c fuel data d () _ hw hw hs (by rw [hsize]) hlen
      (by rw [Nat.succ_mul]; omega) hvec hfuel, callAll_pure]
    simp only [ok_bind]
    rw [hsize, Nat.mul_div_cancel _ (by omega)]
  · have := pointwise_unpad hR ((w - data.length % w) % w) (calls w d data)
    rwa [unpad_calls hw] at this

omit [Packable β] in
/-- **C70**, in place: `simd_for_each` with such an operation replaces every
element by the operation's result for it. -/
theorem C70_for_each {R : α → α → Prop} {F : Vector α w → Res (Vector α w)} (hF : LaneOp1 R F)
    (c : Cfg) (fuel : Nat) (data : List α) (d : Vector α w)
    (hw : 0 < w) (hlen : data.length + w < c.usize) (hfuel : data.length / w < fuel) :
    ∃ out, simdForEach c fuel () (useOp F) (simdIter data d) =
      (ok (), ⟨data.length, ⟨out⟩, d⟩) ∧ Pointwise R data out := by
  obtain ⟨G, hG, hR⟩ := laneOp1_pure hF
  refine ⟨unpad ((w - data.length % w) % w) ((calls w d data).map G), ?_, ?_⟩
  · rw [hG]
    exact C10_for_each_any_closure c fuel data d () () _ _ hw hlen hfuel (callAll_pure _ _)
  · have := pointwise_unpad hR ((w - data.length % w) % w) (calls w d data)
    rwa [unpad_calls hw] at this

end map

/-- Lane-wise operations compose: a closure which calls several. -/
theorem C70_compose {α β γ : Type} {w : Nat} {R : α → β → Prop} {S : β → γ → Prop}
    {F : Vector α w → Res (Vector β w)} {G : Vector β w → Res (Vector γ w)}
    (hF : LaneOp1 R F) (hG : LaneOp1 S G) :
    LaneOp1 (fun x z => ∃ y, R x y ∧ S y z) (fun v => F v >>= G) := by
  intro v
  obtain ⟨u, h1, h2⟩ := hF v
  obtain ⟨t, h3, h4⟩ := hG u
  exact ⟨t, by simp [h1, h3], fun i hi => ⟨u[i], h2 i hi, h4 i hi⟩⟩

theorem absRows_width : ∀ r ∈ absRows, 0 < r.width ∧ r.width * r.size ≤ 64 := by decide +kernel
theorem roundRows_width : ∀ r ∈ roundRows, 0 < r.width ∧ r.width * r.size ≤ 64 := by
  decide +kernel
theorem swapRows_width : ∀ r ∈ swapRows, 0 < r.width ∧ 0 < r.size ∧ r.width * r.size ≤ 64 := by
  decide +kernel

theorem size_bits (s : Nat) : Packable.size (BitVec (8 * s)) = s := by
  simp [Packable.size]

/-- The versions of `abs` of every signed integer type. -/
theorem abs_laneOp (r : AbsRow) (hr : r ∈ absRows) (hk : r.kind = .i) (opt : Bool) :
    LaneOp1 (fun x y => (y.toNat : Int) = if x.toInt < 0 then -x.toInt else x.toInt)
      (absOf opt r : Vector (BitVec (8 * r.size)) r.width → _) := by
  intro v
  unfold absOf
  split
  · next hm => exact C44_int_optimized r hr hk _ hm v
  · exact C44_int_fallback r (.inl hr) hk v

/-- **C70**, the first example of the documentation: `simd_map(|v| v.abs())` and
`scalar_collect` return the magnitudes of all elements, for every signed integer
type, every length, with the instruction and with the fallback. -/
theorem C70_abs (r : AbsRow) (hr : r ∈ absRows) (hk : r.kind = .i) (opt : Bool)
    (c : Cfg) (fuel : Nat) (data : List (BitVec (8 * r.size)))
    (d : Vector (BitVec (8 * r.size)) r.width) (hu : 64 < c.usize)
    (hlen : data.length + r.width < c.usize) (hfuel : data.length / r.width < fuel) :
    ∃ out : List (BitVec (8 * r.size)), (do
      let (_, out) ← scalarCollect c fuel (simdMap (simdIter data d) () (useOp (absOf opt r)))
      ok out) = ok (out.map some) ∧
      Pointwise (fun x y => (y.toNat : Int) = if x.toInt < 0 then -x.toInt else x.toInt) data out := by
  obtain ⟨-, h0, -⟩ := absRows_facts r hr
  obtain ⟨hw, h64⟩ := absRows_width r hr
  exact C70_collect (abs_laneOp r hr hk opt) c fuel data d hw (by rw [size_bits]; exact h0) rfl hlen
    (by rw [size_bits]; omega) hfuel

/-- The example itself: `N` times -10 gives `N` times 10 (in the documentation
`N` is 3000). -/
theorem C70_documentation (r : AbsRow) (hr : r ∈ absRows) (hk : r.kind = .i) (hs : 8 * r.size = 8)
    (opt : Bool) (c : Cfg) (N : Nat) (hu : 64 < c.usize) (hlen : N + r.width < c.usize) :
    (do
      let (_, out) ← scalarCollect c (N + 1)
        (simdMap (simdIter (List.replicate N ((-10#8).cast hs.symm)) (Packed.splat 0)) ()
          (useOp (absOf (w := r.width) opt r)))
      ok out) = ok ((List.replicate N ((10#8).cast hs.symm)).map some) := by
  have hle := Nat.div_le_self N r.width
  obtain ⟨out, h, h1, h2⟩ := C70_abs r hr hk opt c (N + 1)
    (List.replicate N ((-10#8).cast hs.symm)) (Packed.splat 0) hu
    (by simpa using hlen) (by rw [List.length_replicate]; omega)
  rw [h]
  congr 2
  rw [List.length_replicate] at h1
  apply List.ext_getElem
  · simpa using h1
  · intro i hi hi'
    have := h2 i (by rw [List.length_replicate]; omega) hi
    rw [List.getElem_replicate] at this ⊢
    apply BitVec.eq_of_toNat_eq
    have e : ∀ {m : Nat} (h : 8 = m), ((-10#8).cast h).toInt = -10 := by
      rintro m rfl; decide
    rw [e] at this
    rw [BitVec.toNat_cast]
    have e' : (10#8).toNat = 10 := by decide
    omega

/-- **C70** for the directed roundings of the float types. -/
theorem C70_round (r : UnRow) (hr : r ∈ roundRows) (hf : r.fn ≠ .round) (opt : Bool)
    (c : Cfg) (fuel : Nat) (data : List (BitVec (8 * r.size)))
    (d : Vector (BitVec (8 * r.size)) r.width) (hu : 64 < c.usize)
    (hlen : data.length + r.width < c.usize) (hfuel : data.length / r.width < fuel) :
    ∃ out : List (BitVec (8 * r.size)), (do
      let (_, out) ← scalarCollect c fuel (simdMap (simdIter data d) ()
        (useOp (if opt then roundOptimized r else roundFallback r)))
      ok out) = ok (out.map some) ∧ Pointwise (IsRounded (directed r.fn)) data out := by
  obtain ⟨-, -, h0, -⟩ := roundRows_facts r hr
  obtain ⟨hw, h64⟩ := roundRows_width r hr
  refine C70_collect ?_ c fuel data d hw (by rw [size_bits]; omega) rfl hlen
    (by rw [size_bits]; omega) hfuel
  intro v
  cases opt
  · exact C67_fallback r (.inl hr) hf v
  · exact C67_optimized r hr hf v

/-- **C70** for `swap_bytes`, in place: every element has its bytes reversed. -/
theorem C70_swap_bytes (r : ShuffleRow) (hr : r ∈ swapRows) (opt : Bool)
    (c : Cfg) (fuel : Nat) (data : List (BitVec (8 * r.size)))
    (d : Vector (BitVec (8 * r.size)) r.width)
    (hlen : data.length + r.width < c.usize) (hfuel : data.length / r.width < fuel) :
    ∃ out : List (BitVec (8 * r.size)), simdForEach c fuel ()
      (useOp (if opt then fun v => ok (swapBytesShuffle r.ctl v) else swapBytesFallback r.idx))
      (simdIter data d) = (ok (), ⟨data.length, ⟨out⟩, d⟩) ∧
      Pointwise (fun x y => ∀ t, t < r.size → byte y t = byte x (r.size - 1 - t)) data out := by
  obtain ⟨hw, h0, h64⟩ := swapRows_width r hr
  refine C70_for_each ?_ c fuel data d hw hlen hfuel
  intro v
  obtain ⟨h1, h2⟩ := C38_swap_bytes.1 r hr v
  refine ⟨v.map swapBytesScalar, ?_, fun i hi t ht => C38_bytes rfl v hi ht⟩
  cases opt
  · simpa using h1
  · simp [h2]

/-- Rows for all of these exist. -/
example : (∃ r ∈ absRows, r.kind = .i ∧ 8 * r.size = 8 ∧ r.mm.isSome) ∧
    (∃ r ∈ roundRows, r.fn ≠ .round) ∧ swapRows ≠ [] := by decide +kernel

/-- A relation which is not a function is possible: hypotheses met by an
operation which permutes nothing and keeps lanes. -/
example : LaneOp1 (fun x y : BitVec 8 => y = x + 1) (fun v : Vector (BitVec 8) 4 => ok (v.map (· + 1))) :=
  fun v => ⟨_, rfl, fun i hi => by simp⟩

/-! ### C71 -/

/-- `F` is a version of `sum`: it returns the sum of the lanes modulo `2^n`. -/
def SumOp {n w : Nat} (signed : Bool) (F : Vector (BitVec n) w → Res (BitVec n)) : Prop :=
  ∀ v, F v = ok (BitVec.ofInt n (v.toList.map (num signed)).sum)

/-- **C71.** `simd_reduce(splat(0), |acc, v| acc + v).sum()` is the sum of all
elements of the slice modulo `2^n`, for every length and every correct version
of `sum`. The default vector must be zero. -/
theorem C71_sum {n w : Nat} {signed : Bool} {F : Vector (BitVec n) w → Res (BitVec n)}
    (hF : SumOp signed F) (c : Cfg) (fuel : Nat) (data : List (BitVec n))
    (hw : 0 < w) (hlen : data.length + w < c.usize) (hfuel : data.length / w < fuel) :
    (do
      let (_, acc, _) ← simdReduce c fuel (simdIter (w := w) data (Packed.splat 0))
        (Packed.splat 0) () (fun _ acc v => ok (acc.zipWith (· + ·) v, ()))
      F acc) = ok (BitVec.ofInt n (data.map (num signed)).sum) := by
  have h3 := C03_reduce_foldl c fuel data (Packed.splat 0) (Packed.splat 0)
    (fun (acc v : Vector (BitVec n) w) => acc.zipWith (· + ·) v) hw hlen hfuel
  have h4 := C04_monoid_reduce (w := w) c fuel data (· + ·) (0 : BitVec n) BitVec.add_assoc
    BitVec.add_comm (by simp) hw hlen hfuel
  rw [h3] at h4 ⊢
  simp only [ok_bind] at h4 ⊢
  rw [C53_scalar_reduce, foldlM_ok] at h4
  simp only [ok.injEq] at h4
  rw [hF]
  congr 1
  have hs : ∀ l : List (BitVec n), BitVec.ofInt n (l.map (num signed)).sum = l.sum := by
    intro l
    apply sum_ofInt
    intro x
    cases signed
    · exact Kind.ofInt_value .u x
    · exact Kind.ofInt_value .i x
  rw [hs, hs, List.sum_eq_foldl, List.sum_eq_foldl]
  exact h4

/-- **C71**: in a release build every integer version of `sum` satisfies the
hypothesis of `C71_sum`; all but the fallback, `i16x16` and `i32x8` do in every
build. -/
theorem C71_versions (c : Cfg) (hc : c.debug = false) {o : I8Ops 16} (ho : I8Correct o)
    {o' : I8Ops 32} (ho' : I8Correct o') {up} (hup : UpCorrect false up) :
    (∀ (n w : Nat) (k : Kind), SumOp k.signed (sumFallback (n := n) (w := w) c k)) ∧
    SumOp false (sumU8 (w := 16) c [0, 4]) ∧ SumOp false (sumU8 (w := 32) c [0, 4, 8, 12]) ∧
    SumOp true (sumI8 o [0, 4]) ∧ SumOp true (sumI8 o' [0, 4, 8, 12]) ∧
    SumOp true sumI16x8 ∧ SumOp true (sumI16x16 c) ∧ SumOp true (sumI32x8 c) ∧
    SumOp false (sumU16x16 c up) :=
  ⟨fun _ _ k v => C41_fallback_release c hc k v, fun v => C41_u8x16 c v, fun v => C41_u8x32 c v,
    fun v => C41_i8x16 ho v, fun v => C41_i8x32 ho' v, fun v => C41_i16x8 v,
    fun v => C41_i16x16_partial c v (.inl hc), fun v => C41_i32x8_partial c v (.inl hc),
    fun v => C41_u16x16 c hup v⟩

/-- Five elements and four lanes, release build. -/
example : (do
      let (_, acc, _) ← simdReduce release64 9
        (simdIter (w := 4) [100#8, 100, 100, 1, 2] (Packed.splat 0))
        (Packed.splat 0) () (fun _ acc v => ok (acc.zipWith (· + ·) v, ()))
      sumFallback release64 .u acc) = ok 47#8 := by decide +kernel

/-- With another default vector the sum is wrong: padding lanes count. -/
example : (do
      let (_, acc, _) ← simdReduce release64 9
        (simdIter (w := 4) [1#8, 1, 1, 1, 1] (Packed.splat 1))
        (Packed.splat 0) () (fun _ acc v => ok (acc.zipWith (· + ·) v, ()))
      sumFallback release64 .u acc) = ok 8#8 := by decide +kernel

/-! ### C72 -/

/-- **C72**, maps: the collected result of a lane-wise operation does not depend
on the vector width, the default vector or the version of the operation. -/
theorem C72_map {α β : Type} [Packable α] [Packable β] {w w' : Nat} {g : α → β}
    {F : Vector α w → Res (Vector β w)} {F' : Vector α w' → Res (Vector β w')}
    (hF : LaneOp1 (fun x y => y = g x) F) (hF' : LaneOp1 (fun x y => y = g x) F')
    (c : Cfg) (fuel : Nat) (data : List α) (d : Vector α w) (d' : Vector α w')
    (hw : 0 < w) (hw' : 0 < w') (hs : 0 < Packable.size β)
    (hsize : Packable.size α = Packable.size β)
    (hlen : data.length + w < c.usize) (hlen' : data.length + w' < c.usize)
    (hvec : w * Packable.size α < c.usize) (hvec' : w' * Packable.size α < c.usize)
    (hfuel : data.length < fuel) :
    (do
      let (_, out) ← scalarCollect c fuel (simdMap (simdIter data d) () (useOp F))
      ok out) = (do
      let (_, out) ← scalarCollect c fuel (simdMap (simdIter data d') () (useOp F'))
      ok out) := by
  have l1 := Nat.div_le_self data.length w
  have l2 := Nat.div_le_self data.length w'
  obtain ⟨o, h, hp⟩ := C70_collect hF c fuel data d hw hs hsize hlen hvec (by omega)
  obtain ⟨o', h', hp'⟩ := C70_collect hF' c fuel data d' hw' hs hsize hlen' hvec' (by omega)
  rw [h, h', pointwise_map hp, pointwise_map hp']

/-- **C72**, sums: the width does not matter either. -/
theorem C72_sum {n w w' : Nat} {signed : Bool} {F : Vector (BitVec n) w → Res (BitVec n)}
    {F' : Vector (BitVec n) w' → Res (BitVec n)} (hF : SumOp signed F) (hF' : SumOp signed F')
    (c : Cfg) (fuel : Nat) (data : List (BitVec n)) (hw : 0 < w) (hw' : 0 < w')
    (hlen : data.length + w < c.usize) (hlen' : data.length + w' < c.usize)
    (hfuel : data.length < fuel) :
    (do
      let (_, acc, _) ← simdReduce c fuel (simdIter (w := w) data (Packed.splat 0))
        (Packed.splat 0) () (fun _ acc v => ok (acc.zipWith (· + ·) v, ()))
      F acc) = (do
      let (_, acc, _) ← simdReduce c fuel (simdIter (w := w') data (Packed.splat 0))
        (Packed.splat 0) () (fun _ acc v => ok (acc.zipWith (· + ·) v, ()))
      F' acc) := by
  have l1 := Nat.div_le_self data.length w
  have l2 := Nat.div_le_self data.length w'
  rw [C71_sum hF c fuel data hw hlen (by omega), C71_sum hF' c fuel data hw' hlen' (by omega)]

/-- **C72**: every reduction with a commutative, associative operation and its
identity as start and default. -/
theorem C72_monoid {M : Type} {w w' : Nat} (c : Cfg) (fuel : Nat) (data : List M)
    (op : M → M → M) (e : M)
    (hassoc : ∀ a b c, op (op a b) c = op a (op b c)) (hcomm : ∀ a b, op a b = op b a)
    (hid : ∀ a, op e a = a) (hw : 0 < w) (hw' : 0 < w')
    (hlen : data.length + w < c.usize) (hlen' : data.length + w' < c.usize)
    (hfuel : data.length < fuel) :
    (do
      let (_, acc, _) ← simdReduce c fuel (simdIter (w := w) data (Packed.splat e))
        (Packed.splat e) () (fun _ acc v => ok (acc.zipWith op v, ()))
      Packed.scalarReduce acc e (fun a x => ok (op a x))) = (do
      let (_, acc, _) ← simdReduce c fuel (simdIter (w := w') data (Packed.splat e))
        (Packed.splat e) () (fun _ acc v => ok (acc.zipWith op v, ()))
      Packed.scalarReduce acc e (fun a x => ok (op a x))) := by
  have l1 := Nat.div_le_self data.length w
  have l2 := Nat.div_le_self data.length w'
  rw [C04_monoid_reduce c fuel data op e hassoc hcomm hid hw hlen (by omega),
    C04_monoid_reduce c fuel data op e hassoc hcomm hid hw' hlen' (by omega)]

/-- **C72**, the documented exception `length_dependent`: with a constant in the
reduction the result is the number of calls times the number of lanes, whatever
the data, so it is the length rounded up to a multiple of the width. -/
theorem C72_length_dependent {n w : Nat} {signed : Bool}
    {F : Vector (BitVec n) w → Res (BitVec n)} (hF : SumOp signed F) (c : Cfg) (fuel N : Nat)
    (hw : 0 < w) (hlen : N + w < c.usize) (hfuel : N / w < fuel) :
    (do
      let (_, acc, _) ← simdReduce c fuel
        (simdIter (w := w) (List.replicate N 0#n) (Packed.splat 0)) (Packed.splat 0) ()
        (fun _ acc v => ok (Vector.zipWith (· + ·) (Vector.zipWith (· + ·) acc v) (Packed.splat 1), ()))
      F acc) = ok (BitVec.ofNat n ((N + w - 1) / w * w)) := by
  have h3 := C03_reduce_foldl c fuel (List.replicate N 0#n) (Packed.splat 0) (Packed.splat 0)
    (fun (acc v : Vector (BitVec n) w) =>
      Vector.zipWith (· + ·) (Vector.zipWith (· + ·) acc v) (Packed.splat 1)) hw
      (by simpa using hlen) (by simpa using hfuel)
  rw [h3]
  simp only [ok_bind]
  have hz : ∀ v ∈ calls w (Packed.splat 0#n) (List.replicate N 0#n), v = Packed.splat 0#n := by
    intro v hv
    have hd : ∀ x ∈ lanes (calls w (Packed.splat 0#n) (List.replicate N 0#n)), x = 0#n := by
      intro x hx
      simp only [calls, lanes_append, List.mem_append] at hx
      rcases hx with hx | hx
      · have hk := lanes_fullWindows hw (List.replicate N 0#n)
        have : x ∈ List.replicate N 0#n := by rw [← hk]; exact List.mem_append_left _ hx
        exact (List.mem_replicate.mp this).2
      · split at hx
        · simp [lanes] at hx
        · simp only [lanes, List.flatMap_cons, List.flatMap_nil, List.append_nil, padFront,
            Vector.mem_toList_iff, Vector.mem_ofFn, Packed.splat] at hx
          obtain ⟨j, rfl⟩ := hx
          cases h : (leftover w (List.replicate N 0#n))[j.val - (w - (leftover w (List.replicate N 0#n)).length)]? with
          | none => simp
          | some y =>
            have hy : y ∈ List.replicate N 0#n := List.mem_of_mem_drop (List.mem_of_getElem? h)
            rw [(List.mem_replicate.mp hy).2]
            by_cases h' : w - (leftover w (List.replicate N 0#n)).length ≤ j.val <;> simp [h', Option.filter]
    apply Vector.ext
    intro i hi
    rw [hd v[i] (by
      simp only [lanes, List.mem_flatMap]
      exact ⟨v, hv, by simp⟩)]
    simp [Packed.splat]
  have hf : ∀ (vs : List (Vector (BitVec n) w)), (∀ v ∈ vs, v = Packed.splat 0#n) → ∀ k : Nat,
      vs.foldl (fun (acc v : Vector (BitVec n) w) =>
        Vector.zipWith (· + ·) (Vector.zipWith (· + ·) acc v) (Packed.splat 1))
        (Packed.splat (BitVec.ofNat n k)) = Packed.splat (BitVec.ofNat n (k + vs.length)) := by
    intro vs
    induction vs with
    | nil => intro _ k; rfl
    | cons v vs ih =>
      intro h k
      rw [List.foldl_cons, h v (by simp)]
      have : Vector.zipWith (· + ·) (Vector.zipWith (· + ·) (Packed.splat (BitVec.ofNat n k))
          (Packed.splat 0#n)) (Packed.splat 1) = (Packed.splat (BitVec.ofNat n (k + 1)) : Vector _ w) := by
        ext i hi
        simp [Packed.splat, BitVec.ofNat_add]
      rw [this, ih (fun v hv => h v (by simp [hv]))]
      simp [Nat.add_comm, Nat.add_left_comm]
  have := hf _ hz 0
  refine (congrArg F this).trans ?_
  rw [hF]
  have hl : (calls w (Packed.splat 0#n) (List.replicate N 0#n)).length = (N + w - 1) / w := by
    simp only [calls, List.length_append, fullWindows_length, List.length_replicate]
    have hdm := Nat.div_add_mod N w
    have hm := Nat.mod_lt N hw
    split
    · next h0 =>
      rw [h0] at hdm
      have : N + w - 1 = (w - 1) + w * (N / w) := by omega
      rw [this, Nat.add_mul_div_left _ _ hw, Nat.div_eq_of_lt (show w - 1 < w by omega)]
      simp
    · next h0 =>
      have : N + w - 1 = (N % w - 1) + w * (N / w + 1) := by rw [Nat.mul_succ]; omega
      rw [this, Nat.add_mul_div_left _ _ hw, Nat.div_eq_of_lt (show N % w - 1 < w by omega)]
      simp
  rw [hl]
  congr 1
  have hs : ∀ l : List (BitVec n), BitVec.ofInt n (l.map (num signed)).sum = l.sum := by
    intro l
    apply sum_ofInt
    intro x
    cases signed
    · exact Kind.ofInt_value .u x
    · exact Kind.ofInt_value .i x
  rw [hs]
  simp only [Packed.splat, Vector.toList_replicate, Nat.zero_add]
  have hrep : ∀ m : Nat, (List.replicate m (BitVec.ofNat n ((N + w - 1) / w))).sum =
      BitVec.ofNat n ((N + w - 1) / w * m) := by
    intro m
    induction m with
    | zero => simp
    | succ m ih => rw [List.replicate_succ, List.sum_cons, ih, Nat.mul_succ, BitVec.ofNat_add, BitVec.add_comm]
  exact hrep w

/-- The documented reduction over ten elements: 16 with 16 lanes, 32 with 32 lanes. -/
example : (10 + 16 - 1) / 16 * 16 = 16 ∧ (10 + 32 - 1) / 32 * 32 = 32 := by decide

/-- The documented impure map: 4 and 2 lanes give different results. -/
example : let run (w : Nat) := (do
      let (_, out) ← scalarCollect debug64 9 (simdMap (simdIter (w := w) (List.replicate 8 1#8)
        (Packed.splat 0)) true (fun flip v => ok (if flip then v else v.map (· + 1), !flip)))
      ok out)
    run 4 = ok ([1, 1, 1, 1, 2, 2, 2, 2].map some) ∧
    run 2 = ok ([1, 1, 2, 2, 1, 1, 2, 2].map some) := by decide +kernel

/-! ### C73 -/

/-- `F` never fails and relates the lanes of two vectors to the same lane of its
result. -/
def LaneOp2 {α β γ : Type} {w : Nat} (R : α → β → γ → Prop)
    (F : Vector α w → Vector β w → Res (Vector γ w)) : Prop :=
  ∀ a b, ∃ u, F a b = ok u ∧ ∀ i (hi : i < w), R a[i] b[i] u[i]

/-- The closure `|(a, b)| F(a, b)`. -/
def useOp2 {α β γ : Type} {w : Nat} (F : Vector α w → Vector β w → Res (Vector γ w)) :
    FnMut Unit (Vector α w × Vector β w × Unit) (Vector γ w) := fun _ v => do
  let u ← F v.1 v.2.1
  ok (u, ())

/-- **C73.** Zipping two slices of one length, mapping a two-argument vector
operation which works lane by lane and collecting gives one element per index,
related to the two elements at that index as the operation relates lanes. -/
theorem C73_zip {α β γ : Type} [Packable α] [Packable γ] {w : Nat} {R : α → β → γ → Prop}
    {F : Vector α w → Vector β w → Res (Vector γ w)} (hF : LaneOp2 R F)
    (c : Cfg) (fuel : Nat) (xs : List α) (ys : List β) (dx : Vector α w) (dy : Vector β w)
    (h : xs.length = ys.length) (hw : 0 < w) (hu : xs.length + w < c.usize)
    (hs : 0 < Packable.size γ) (hsize : Packable.size α = Packable.size γ)
    (hvec : w * Packable.size α < c.usize) (hfuel : xs.length / w < fuel) :
    ∃ out : List γ, (do
      let z ← zip c (simdIter xs dx) (simdIter ys dy, ())
      let (_, out) ← scalarCollect c fuel (zsimdMap z () (useOp2 F))
      ok out) = ok (out.map some) ∧ out.length = xs.length ∧
      ∀ i (h1 : i < xs.length) (h2 : i < ys.length) (h3 : i < out.length), R xs[i] ys[i] out[i] := by
  have hF' := hF
  choose G hG using hF'
  have hpure : useOp2 F = pureFn fun v => G v.1 v.2.1 := by
    funext st v
    simp [useOp2, pureFn, (hG v.1 v.2.1).1]
  have hdm := Nat.div_mul_le_self xs.length w
  have hrow : (rows2 xs ys).length = xs.length := by simp [rows2, h]
  have key := pointwise_unpad (R := fun (t : α × β × Unit) z => R t.1 t.2.1 z)
    (G := (fun v : Vector α w × Vector β w × Unit => G v.1 v.2.1) ∘
      packRow (SIMDIter (Slice β w) β w × Unit))
    (by
      intro v i hi
      have := (hG (v.map Prod.fst) ((v.map Prod.snd).map Prod.fst)).2 i hi
      simp only [Vector.getElem_map] at this
      exact this)
    ((w - xs.length % w) % w)
    (calls w (Vector.zipWith (fun a b => (a, b, ())) dx dy) (rows2 xs ys))
  rw [← List.map_map, calls_two xs ys dx dy h hw, ← hrow, unpad_calls hw] at key
  obtain ⟨k1, k2⟩ := key
  refine ⟨_, ?_, k1.trans hrow, fun i h1 h2 h3 => ?_⟩
  · rw [hpure, C21_zip_two_any c xs ys dx dy fuel () _ h hw hu hw hs (by rw [hsize])
      (by rw [Nat.succ_mul]; omega) hvec hfuel, callAll_pure]
    simp only [ok_bind]
    rw [hsize, Nat.mul_div_cancel _ (by omega), hrow]
  · have := k2 i (by omega) h3
    simpa [rows2] using this

theorem satAddRows_width : ∀ r ∈ satAddRows, 0 < r.width ∧ r.width * r.size ≤ 64 := by
  decide +kernel
theorem cmpRows_width : ∀ r ∈ cmpRows, 0 < r.width ∧ 0 < r.size ∧ r.width * r.size ≤ 64 := by
  decide +kernel

/-- **C73** for `saturating_add`, every type which has it, both versions. -/
theorem C73_saturating_add (r : BinRow) (hr : r ∈ satAddRows) (opt : Bool)
    (c : Cfg) (fuel : Nat) (xs ys : List (BitVec (8 * r.size)))
    (dx dy : Vector (BitVec (8 * r.size)) r.width) (h : xs.length = ys.length)
    (h64 : 64 < c.usize) (hu : xs.length + r.width < c.usize) (hfuel : xs.length / r.width < fuel) :
    ∃ out : List (BitVec (8 * r.size)), (do
      let z ← zip c (simdIter xs dx) (simdIter ys dy, ())
      let (_, out) ← scalarCollect c fuel (zsimdMap z () (useOp2 (w := r.width) (cmpOf (n := 8 * r.size) c opt r)))
      ok out) = ok (out.map some) ∧ out.length = xs.length ∧
      ∀ i (h1 : i < xs.length) (h2 : i < ys.length) (h3 : i < out.length),
        num r.kind.signed out[i] = nearest r.kind.signed (8 * r.size)
          (num r.kind.signed xs[i] + num r.kind.signed ys[i]) := by
  obtain ⟨-, h0, -⟩ := satAddRows_facts r hr
  obtain ⟨hw, hb⟩ := satAddRows_width r hr
  refine C73_zip (R := fun x y z => num r.kind.signed z = nearest r.kind.signed (8 * r.size)
    (num r.kind.signed x + num r.kind.signed y)) ?_ c fuel xs ys dx dy h hw hu
    (by rw [size_bits]; exact h0) rfl (by rw [size_bits]; omega) hfuel
  intro a b
  cases opt
  · exact C39_add_fallback c r (.inl hr) a b
  · exact C39_add_optimized r hr a b

/-- **C73** for `min` and `max` of the integer types, both versions. -/
theorem C73_min_max (r : BinRow) (hr : r ∈ cmpRows) (hk : r.kind ≠ .f) (opt : Bool)
    (c : Cfg) (fuel : Nat) (xs ys : List (BitVec (8 * r.size)))
    (dx dy : Vector (BitVec (8 * r.size)) r.width) (h : xs.length = ys.length)
    (h64 : 64 < c.usize) (hu : xs.length + r.width < c.usize) (hfuel : xs.length / r.width < fuel) :
    ∃ out : List (BitVec (8 * r.size)), (do
      let z ← zip c (simdIter xs dx) (simdIter ys dy, ())
      let (_, out) ← scalarCollect c fuel (zsimdMap z () (useOp2 (w := r.width) (cmpOf (n := 8 * r.size) c opt r)))
      ok out) = ok (out.map some) ∧ out.length = xs.length ∧
      ∀ i (h1 : i < xs.length) (h2 : i < ys.length) (h3 : i < out.length),
        IsExtreme r.kind.signed (r.fn == .max) xs[i] ys[i] out[i] := by
  obtain ⟨hw, h0, hb⟩ := cmpRows_width r hr
  refine C73_zip (R := IsExtreme r.kind.signed (r.fn == .max)) ?_ c fuel xs ys dx dy h hw hu
    (by rw [size_bits]; exact h0) rfl (by rw [size_bits]; omega) hfuel
  intro a b
  cases opt
  · exact C51_fallback c r (.inl hr) hk a b
  · exact C51_optimized r hr hk a b

/-- **C73**, the example of the documentation: `a + b` (`Add` wraps). -/
theorem C73_add {n w : Nat} (c : Cfg) (fuel : Nat) (xs ys : List (BitVec n))
    (dx dy : Vector (BitVec n) w) (h : xs.length = ys.length)
    (hw : 0 < w) (hs : 8 ≤ n) (hu : xs.length + w < c.usize) (hvec : w * n < c.usize)
    (hfuel : xs.length / w < fuel) :
    (do
      let z ← zip c (simdIter xs dx) (simdIter ys dy, ())
      let (_, out) ← scalarCollect c fuel
        (zsimdMap z () (useOp2 fun (a b : Vector (BitVec n) w) => ok (Vector.zipWith (· + ·) a b)))
      ok out) = ok ((List.zipWith (· + ·) xs ys).map some) := by
  have hle : w * (n / 8) ≤ w * n := Nat.mul_le_mul_left _ (Nat.div_le_self n 8)
  obtain ⟨out, h1, h2, h3⟩ := C73_zip (R := fun x y z : BitVec n => z = x + y)
    (F := fun a b : Vector (BitVec n) w => ok (Vector.zipWith (· + ·) a b))
    (fun a b => ⟨_, rfl, fun i hi => by simp⟩) c fuel xs ys dx dy h hw hu
    (by simp only [Packable.size]; omega) rfl (by simp only [Packable.size]; omega) hfuel
  rw [h1]
  congr 2
  apply List.ext_getElem
  · simp [h2, h]
  · intro i hi hi'
    simp only [List.length_zipWith] at hi'
    simpa using h3 i (by omega) (by omega) hi

example : (do
    let z ← zip debug64 (simdIter [4#32, 4, 4, 4, 4] #v[0#32, 0]) (simdIter [3#32, 3, 3, 3, 3] #v[0#32, 0], ())
    let (_, out) ← scalarCollect debug64 9
      (zsimdMap z () (useOp2 fun (a b : Vector (BitVec 32) 2) => ok (Vector.zipWith (· + ·) a b)))
    ok out) = ok ([7#32, 7, 7, 7, 7].map some) := by decide +kernel

/-! ### C74 -/

/-- **C74**, the determinant example of the documentation: four strided iterators
over one slice, zipped, `a * d - b * c` per lane, collected: one determinant per
complete group of four elements. `mul` and `sub` are the operations of the
element type. -/
theorem C74_determinant {α : Type} [Packable α] {w : Nat} (mul sub : α → α → α)
    (c : Cfg) (fuel : Nat) (l : List α) (D : Nat → Vector α w)
    (hw : 0 < w) (hs : 0 < Packable.size α) (hu : l.length + 4 * (w + 1) < c.usize)
    (hvec : w * Packable.size α < c.usize) (hfuel : l.length / 4 / w < fuel) :
    (do
      let t := strideFour (⟨l⟩ : Slice α w) (D 0, D 1, D 2, D 3)
      let z ← zip c t.1 (t.2.1, t.2.2.1, t.2.2.2, ())
      let (_, out) ← scalarCollect c fuel (zsimdMap z () (pureFn fun
        (v : Vector α w × Vector α w × Vector α w × Vector α w × Unit) =>
          Vector.zipWith sub (Vector.zipWith mul v.1 v.2.2.2.1) (Vector.zipWith mul v.2.1 v.2.2.1)))
      ok out) = ok ((List.ofFn (n := l.length / 4) fun i =>
        sub (mul (l[4 * i.val]'(by omega)) (l[4 * i.val + 3]'(by omega)))
          (mul (l[4 * i.val + 1]'(by omega)) (l[4 * i.val + 2]'(by omega)))).map some) := by
  have key := C28_zip_strides (w := w) c 3 l D hw (by omega) fuel
    (fun x : List α => sub (mul (x.getD 0 Packable.zero) (x.getD 3 Packable.zero))
      (mul (x.getD 1 Packable.zero) (x.getD 2 Packable.zero))) hs rfl hvec hfuel
  have hfn : (fun (v : Vector α w × Vector α w × Vector α w × Vector α w × Unit) =>
      Vector.zipWith sub (Vector.zipWith mul v.1 v.2.2.2.1) (Vector.zipWith mul v.2.1 v.2.2.1)) =
      laneFn (w := w) (n := 3) (fun x : List α =>
        sub (mul (x.getD 0 Packable.zero) (x.getD 3 Packable.zero))
          (mul (x.getD 1 Packable.zero) (x.getD 2 Packable.zero))) := by
    funext v
    ext j hj
    simp [laneFn, PowT.toList]
    rfl
  have hchunk : (chunksExact 4 l).map (fun x : List α =>
        sub (mul (x.getD 0 Packable.zero) (x.getD 3 Packable.zero))
          (mul (x.getD 1 Packable.zero) (x.getD 2 Packable.zero))) =
      List.ofFn (n := l.length / 4) fun i =>
        sub (mul (l[4 * i.val]'(by omega)) (l[4 * i.val + 3]'(by omega)))
          (mul (l[4 * i.val + 1]'(by omega)) (l[4 * i.val + 2]'(by omega))) := by
    apply List.ext_getElem
    · simp [chunksExact]
    · intro i h1 h2
      have hi : i < l.length / 4 := by simpa [chunksExact] using h1
      have hg : ∀ k, (hk : k < 4) → ((l.drop (i * 4)).take 4).getD k Packable.zero =
          l[4 * i + k]'(by omega) := by
        intro k hk
        rw [List.getD_eq_getElem?_getD, List.getElem?_take, if_pos hk, List.getElem?_drop,
          List.getElem?_eq_getElem (by omega), Option.getD_some]
        congr 1
        omega
      simp only [chunksExact, List.getElem_map, List.getElem_range, List.getElem_ofFn]
      rw [hg 0 (by omega), hg 1 (by omega), hg 2 (by omega), hg 3 (by omega)]
      rfl
  rw [← hchunk, hfn]
  exact key

/-- Two matrices and two left-over elements. -/
example : (do
    let t := strideFour (⟨[1#16, 2, 3, 4, 2, 0, 0, 3, 9, 9]⟩ : Slice _ 2)
      (#v[0#16, 0], #v[0, 0], #v[0, 0], #v[0, 0])
    let z ← zip debug64 t.1 (t.2.1, t.2.2.1, t.2.2.2, ())
    let (_, out) ← scalarCollect debug64 9 (zsimdMap z () (pureFn fun
      (v : Vector (BitVec 16) 2 × Vector (BitVec 16) 2 × Vector (BitVec 16) 2 ×
        Vector (BitVec 16) 2 × Unit) =>
        Vector.zipWith (· - ·) (Vector.zipWith (· * ·) v.1 v.2.2.2.1)
          (Vector.zipWith (· * ·) v.2.1 v.2.2.1)))
    ok out) = ok ([-2#16, 6].map some) := by decide +kernel

end Faster
