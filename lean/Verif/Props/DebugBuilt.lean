import Verif.Props.DebugSafe
/-
C79, closed form: whatever iterator is built with the constructors of the crate
and moved by its methods, in a debug build no method and no consumer has
undefined behaviour.
-/
namespace Faster
open Res SIMDSized SIMDIterable SIMDIterator

/-- Iterators over collections, in every state reachable with their methods:
slices (src/into_iters.rs), strides of slices and of other such iterators
(src/stride.rs:113). -/
inductive BuiltBase (c : Cfg) : (I α : Type) → (w : Nat) → (sz : SIMDSized I) →
    (it : SIMDIterator I α w) → (arr : SIMDArray I α w) → I → Prop where
  | slice {α : Type} {w : Nat} (data : List α) (d : Vector α w) :
    BuiltBase c (SIMDIter (Slice α w) α w) α w inferInstance inferInstance inferInstance
      (simdIter data d)
  | stride {α : Type} {w : Nat} [Packable α] (data : List α) (count k : Nat) (d : Vector α w) :
    BuiltBase c (PackedStride (Slice α w) α w) α w inferInstance inferInstance inferInstance
      (strideAt ⟨data⟩ count k d)
  | strideOf {I α : Type} {w : Nat} {sz : SIMDSized I} {it : SIMDIterator I α w}
      {arr : SIMDArray I α w} [Packable α] {x : I} (count k : Nat) (d : Vector α w) :
    BuiltBase c I α w sz it arr x →
    BuiltBase c (PackedStride I α w) α w inferInstance inferInstance inferInstance
      (strideAt x count k d)
  | call {I α : Type} {w : Nat} {sz : SIMDSized I} {it : SIMDIterator I α w}
      {arr : SIMDArray I α w} {x x' : I} {o : IterOut α w} (op : IterOp) :
    BuiltBase c I α w sz it arr x → op.step c x = ok (o, x') →
    BuiltBase c I α w sz it arr x'

/-- The second to last iterators of a zip. -/
inductive BuiltRest (c : Cfg) : (R γ : Type) → ZipRest R γ → R → Prop where
  | nil : BuiltRest c Unit Unit inferInstance ()
  | cons {I α R γ : Type} {w : Nat} {sz : SIMDSized I} {it : SIMDIterator I α w}
      {arr : SIMDArray I α w} {zr : ZipRest R γ} {x : I} {r : R} :
    BuiltBase c I α w sz it arr x → BuiltRest c R γ zr r →
    BuiltRest c (I × R) (Vector α w × γ) inferInstance (x, r)

mutual

/-- Iterators in every state reachable with the constructors and the methods. -/
inductive Built (c : Cfg) : (I α : Type) → (w : Nat) → (sz : SIMDSized I) →
    (it : SIMDIterator I α w) → I → Prop where
  | base {I α : Type} {w : Nat} {sz : SIMDSized I} {it : SIMDIterator I α w}
      {arr : SIMDArray I α w} {x : I} :
    BuiltBase c I α w sz it arr x → Built c I α w sz it x
  | adapter {α : Type} {w : Nat} (a : SIMDAdapter α w) :
    Built c (SIMDAdapter α w) α w inferInstance inferInstance a
  | map {I α σ β : Type} {w w' : Nat} {sz : SIMDSized I} {it : SIMDIterator I α w} [Packable α]
      [Packable β] {x : I} (st : σ) (f : FnMut σ (Vector α w) (Vector β w')) :
    Built c I α w sz it x → SafeFn f →
    Built c (SIMDMap I σ α w β w') β w' inferInstance inferInstance (simdMap x st f)
  | zipMap {Z γ σ β : Type} {w' : Nat} {zi : SIMDZippedIterator Z γ} [Packable β] {z : Z} (st : σ)
      (f : FnMut σ γ (Vector β w')) :
    BuiltZip c Z γ zi z → SafeFn f →
    Built c (SIMDZipMap Z σ γ β w') β w' inferInstance inferInstance (zsimdMap z st f)
  | next {I α : Type} {w : Nat} {sz : SIMDSized I} {it : SIMDIterator I α w} {x x' : I}
      {r : Option (Vector α w)} :
    Built c I α w sz it x → SIMDIterable.next c x = ok (r, x') → Built c I α w sz it x'
  | end_ {I α : Type} {w : Nat} {sz : SIMDSized I} {it : SIMDIterator I α w} {x x' : I}
      {r : Option (Vector α w × Nat)} :
    Built c I α w sz it x → SIMDIterator.end_ c x = ok (r, x') → Built c I α w sz it x'
  | advance {I α : Type} {w : Nat} {sz : SIMDSized I} {it : SIMDIterator I α w} {x x' : I} (k : Nat) :
    Built c I α w sz it x → SIMDIterable.advance c x k = ok x' → Built c I α w sz it x'

/-- Zips in every state reachable with the constructors and the methods. -/
inductive BuiltZip (c : Cfg) : (Z γ : Type) → SIMDZippedIterator Z γ → Z → Prop where
  | zip {I R α γ : Type} {w : Nat} {sz : SIMDSized I} {it : SIMDIterator I α w} [Packable α]
      {zr : ZipRest R γ} {x : I} {r : R} {z : Zip I R} :
    Built c I α w sz it x → BuiltRest c R γ zr r → zip c x r = ok z →
    BuiltZip c (Zip I R) (Vector α w × γ) inferInstance z
  | strideZip {I α : Type} {w : Nat} {sz : SIMDSized I} {it : SIMDIterator I α w} [Packable α]
      {x : I} {z : StrideZip I α w} :
    Built c I α w sz it x → strideZip c x = ok z →
    BuiltZip c (StrideZip I α w) (Vector α w × Vector α w) inferInstance z
  | next {Z γ : Type} {zi : SIMDZippedIterator Z γ} {z z' : Z} {r : Option γ} :
    BuiltZip c Z γ zi z → SIMDZippedIterator.next c z = ok (r, z') → BuiltZip c Z γ zi z'
  | end_ {Z γ : Type} {zi : SIMDZippedIterator Z γ} {z z' : Z} {r : Option (γ × Nat)} :
    BuiltZip c Z γ zi z → SIMDZippedIterator.end_ c z = ok (r, z') → BuiltZip c Z γ zi z'
  | advance {Z γ : Type} {zi : SIMDZippedIterator Z γ} {z z' : Z} (k : Nat) :
    BuiltZip c Z γ zi z → SIMDZippedIterator.advance c z k = ok z' → BuiltZip c Z γ zi z'

end

/-- `Built` with the classes inferred. -/
abbrev IsBuilt {I α : Type} {w : Nat} [sz : SIMDSized I] [it : SIMDIterator I α w] (c : Cfg) (x : I) :
    Prop := Built c I α w sz it x

theorem Res.Ensures.of_ok {α : Type} {x : Res α} {Q : α → Prop} {a : α} (h : x.Ensures Q)
    (e : x = ok a) : Q a := by
  subst e
  exact h

variable {c : Cfg}

theorem builtBase_safe (hd : c.debug = true) {I α : Type} {w : Nat} {sz : SIMDSized I}
    {it : SIMDIterator I α w} {arr : SIMDArray I α w} {x : I} (h : BuiltBase c I α w sz it arr x) :
    ∃ P : I → Prop, SafeIter c P ∧ SafeArray c P ∧ P x := by
  induction h with
  | slice data d =>
    exact ⟨_, C79_iter hd (C79_slice hd), simdIter_safeArray (C79_slice hd), trivial⟩
  | stride data count k d =>
    exact ⟨_, C79_stride hd (C79_slice hd), C79_stride_array hd (C79_slice hd), trivial⟩
  | strideOf count k d _ ih =>
    obtain ⟨P, h1, h2, h3⟩ := ih
    exact ⟨_, C79_stride hd h2, C79_stride_array hd h2, h3⟩
  | call op _ e ih =>
    obtain ⟨P, h1, h2, h3⟩ := ih
    refine ⟨P, h1, h2, ?_⟩
    have := C79_calls hd h1 h2 [op] _ h3
    simp only [runOps, e, ok_bind] at this
    exact this

theorem builtRest_safe (hd : c.debug = true) {R γ : Type} {zr : ZipRest R γ} {r : R}
    (h : BuiltRest c R γ zr r) : ∃ S : R → Prop, SafeRest c S ∧ S r := by
  induction h with
  | nil => exact ⟨_, C79_rest_nil, trivial⟩
  | cons hx _ ih =>
    obtain ⟨P, h1, h2, h3⟩ := builtBase_safe hd hx
    obtain ⟨S, h4, h5⟩ := ih
    exact ⟨_, C79_rest_cons hd h1.toSafeIterable h2 h4, h3, h5⟩

/-- What is proved by induction about an iterator. -/
private def Good (c : Cfg) (I α : Type) (w : Nat) (sz : SIMDSized I) (it : SIMDIterator I α w)
    (x : I) : Prop := ∃ P : I → Prop, SafeIter c P ∧ P x

/-- What is proved by induction about a zip. -/
private def GoodZip (c : Cfg) (Z γ : Type) (zi : SIMDZippedIterator Z γ) (z : Z) : Prop :=
  ∃ P : Z → Prop, SafeZip c P ∧ P z

private theorem built_both (hd : c.debug = true) :
    (∀ {I α : Type} {w : Nat} {sz : SIMDSized I} {it : SIMDIterator I α w} {x : I},
      Built c I α w sz it x → Good c I α w sz it x) ∧
    (∀ {Z γ : Type} {zi : SIMDZippedIterator Z γ} {z : Z},
      BuiltZip c Z γ zi z → GoodZip c Z γ zi z) := by
  have base : ∀ {I α : Type} {w : Nat} {sz : SIMDSized I} {it : SIMDIterator I α w}
      {arr : SIMDArray I α w} {x : I}, BuiltBase c I α w sz it arr x → Good c I α w sz it x := by
    intro I α w sz it arr x h
    obtain ⟨P, h1, -, h2⟩ := builtBase_safe hd h
    exact ⟨P, h1, h2⟩
  have map : ∀ {I α σ β : Type} {w w' : Nat} {sz : SIMDSized I} {it : SIMDIterator I α w}
      [Packable α] [Packable β] {x : I} (st : σ) (f : FnMut σ (Vector α w) (Vector β w')),
      Good c I α w sz it x → SafeFn f →
      Good c (SIMDMap I σ α w β w') β w' inferInstance inferInstance (simdMap x st f) := by
    intro I α σ β w w' sz it _ _ x st f ⟨P, h1, h2⟩ hf
    exact ⟨_, C79_map hd h1, h2, hf⟩
  have zmap : ∀ {Z γ σ β : Type} {w' : Nat} {zi : SIMDZippedIterator Z γ} [Packable β] {z : Z}
      (st : σ) (f : FnMut σ γ (Vector β w')), GoodZip c Z γ zi z → SafeFn f →
      Good c (SIMDZipMap Z σ γ β w') β w' inferInstance inferInstance (zsimdMap z st f) := by
    intro Z γ σ β w' zi _ z st f ⟨P, h1, h2⟩ hf
    exact ⟨_, C79_zip_map hd h1, h2, hf⟩
  have zipNew : ∀ {I R α γ : Type} {w : Nat} {sz : SIMDSized I} {it : SIMDIterator I α w}
      [Packable α] {zr : ZipRest R γ} {x : I} {r : R} {z : Zip I R},
      Good c I α w sz it x → BuiltRest c R γ zr r → zip c x r = ok z →
      GoodZip c (Zip I R) (Vector α w × γ) inferInstance z := by
    intro I R α γ w sz it _ zr x r z ⟨P, h1, h2⟩ hr e
    obtain ⟨S, h3, h4⟩ := builtRest_safe hd hr
    exact ⟨_, C79_zip h1 h3, (C79_zip_new h1 h3 _ _ h2 h4).of_ok e⟩
  have strideNew : ∀ {I α : Type} {w : Nat} {sz : SIMDSized I} {it : SIMDIterator I α w}
      [Packable α] {x : I} {z : StrideZip I α w}, Good c I α w sz it x → strideZip c x = ok z →
      GoodZip c (StrideZip I α w) (Vector α w × Vector α w) inferInstance z := by
    intro I α w sz it _ x z ⟨P, h1, h2⟩ e
    refine ⟨_, C79_stride_zip hd h1, ?_⟩
    refine Res.Ensures.of_ok (Q := fun z => P z.iter) ?_ e
    exact ensures_bind (h1.scalarPos _ h2) fun _ _ _ => h2
  have key := fun {I α w sz it x} => @Built.rec c
    (fun I α w sz it x _ => Good c I α w sz it x) (fun Z γ zi z _ => GoodZip c Z γ zi z)
    (fun h => base h) (fun a => ⟨_, C79_adapter hd, trivial⟩)
    (fun st f _ hf ih => map st f ih hf) (fun st f _ hf ih => zmap st f ih hf)
    (fun _ e ⟨P, h1, h2⟩ => ⟨P, h1, ((h1.next _ h2).of_ok e).1⟩)
    (fun _ e ⟨P, h1, h2⟩ => ⟨P, h1, ((h1.end_ _ h2).of_ok e).1⟩)
    (fun k _ e ⟨P, h1, h2⟩ => ⟨P, h1, ((h1.advance _ k h2).of_ok e).1⟩)
    (fun _ hr e ih => zipNew ih hr e) (fun _ e ih => strideNew ih e)
    (fun _ e ⟨P, h1, h2⟩ => ⟨P, h1, ((h1.next _ h2).of_ok e).1⟩)
    (fun _ e ⟨P, h1, h2⟩ => ⟨P, h1, ((h1.end_ _ h2).of_ok e).1⟩)
    (fun k _ e ⟨P, h1, h2⟩ => ⟨P, h1, ((h1.advance _ k h2).of_ok e).1⟩) I α w sz it x
  have key2 := fun {Z γ zi z} => @BuiltZip.rec c
    (fun I α w sz it x _ => Good c I α w sz it x) (fun Z γ zi z _ => GoodZip c Z γ zi z)
    (fun h => base h) (fun a => ⟨_, C79_adapter hd, trivial⟩)
    (fun st f _ hf ih => map st f ih hf) (fun st f _ hf ih => zmap st f ih hf)
    (fun _ e ⟨P, h1, h2⟩ => ⟨P, h1, ((h1.next _ h2).of_ok e).1⟩)
    (fun _ e ⟨P, h1, h2⟩ => ⟨P, h1, ((h1.end_ _ h2).of_ok e).1⟩)
    (fun k _ e ⟨P, h1, h2⟩ => ⟨P, h1, ((h1.advance _ k h2).of_ok e).1⟩)
    (fun _ hr e ih => zipNew ih hr e) (fun _ e ih => strideNew ih e)
    (fun _ e ⟨P, h1, h2⟩ => ⟨P, h1, ((h1.next _ h2).of_ok e).1⟩)
    (fun _ e ⟨P, h1, h2⟩ => ⟨P, h1, ((h1.end_ _ h2).of_ok e).1⟩)
    (fun k _ e ⟨P, h1, h2⟩ => ⟨P, h1, ((h1.advance _ k h2).of_ok e).1⟩) Z γ zi z
  exact ⟨fun h => key h, fun h => key2 h⟩

theorem built_safe (hd : c.debug = true) {I α : Type} {w : Nat} {sz : SIMDSized I}
    {it : SIMDIterator I α w} {x : I} (h : Built c I α w sz it x) :
    ∃ P : I → Prop, SafeIter c P ∧ P x := (built_both hd).1 h

theorem builtZip_safe (hd : c.debug = true) {Z γ : Type} {zi : SIMDZippedIterator Z γ} {z : Z}
    (h : BuiltZip c Z γ zi z) : ∃ P : Z → Prop, SafeZip c P ∧ P z := (built_both hd).2 h

/-- **C79**: in a debug build, no method of an iterator built with the crate has
undefined behaviour, in any state. -/
theorem C79_methods (hd : c.debug = true) {I α : Type} {w : Nat} {sz : SIMDSized I}
    {it : SIMDIterator I α w} {x : I} (h : Built c I α w sz it x) :
    (next c x).isSafe ∧ (end_ c x).isSafe ∧ (∀ k, (advance c x k).isSafe) ∧
    (finalize c x).isSafe ∧ (len c x).isSafe ∧ (scalarPos c x).isSafe ∧ (scalarLen c x).isSafe ∧
    (vectorPos c x).isSafe ∧ (vecLen c x).isSafe := by
  obtain ⟨P, h1, h2⟩ := built_safe hd h
  refine ⟨(h1.next x h2).isSafe, (h1.end_ x h2).isSafe, fun k => (h1.advance x k h2).isSafe,
    (finalize_ensures hd h1.toSafeIterable x h2).isSafe, (h1.len x h2).isSafe,
    (h1.scalarPos x h2).isSafe, (h1.scalarLen x h2).isSafe, (h1.vectorPos x h2).isSafe,
    (h1.vecLen x h2).isSafe⟩

/-- **C79**: in a debug build, no consumer of an iterator built with the crate has
undefined behaviour: not for any buffer length, however often, and whatever was
called before. -/
theorem C79_consumers (hd : c.debug = true) {I α : Type} {w : Nat} {sz : SIMDSized I}
    {it : SIMDIterator I α w} {x : I} [Packable α] (hw : 0 < w) (h : Built c I α w sz it x)
    (fuel : Nat) :
    (scalarCollect c fuel x).isSafe ∧ (scalarCollectAll c fuel x).isSafe ∧
    (∀ buf, (scalarFill c fuel x buf).isSafe) ∧ (∀ buf, (scalarFillAll c fuel x buf).isSafe) ∧
    (∀ (σ : Type) (st : σ) (f : FnMut σ (Vector α w) Unit), SafeFn f →
      (simdDoEach c fuel x st f).isSafe) ∧
    (∀ (A σ : Type) (a : A) (st : σ) (f : σ → A → Vector α w → Res (A × σ)), SafeFn2 f →
      (simdReduce c fuel x a st f).isSafe) := by
  obtain ⟨P, h1, h2⟩ := built_safe hd h
  exact ⟨(C79_collect hd h1 fuel x h2).isSafe, (C79_collect_all hd hw h1 fuel x h2).isSafe,
    fun buf => (C79_fill hd h1 fuel x buf h2).isSafe,
    fun buf => (C79_fill_all hd h1 fuel x buf h2).isSafe,
    fun σ st f hf => (C79_do_each h1 hf fuel x st h2).isSafe,
    fun A σ a st f hf => (C79_reduce h1 hf fuel x a st h2).isSafe⟩

/-- **C79**: zips. -/
theorem C79_zip_methods (hd : c.debug = true) {Z γ : Type} {zi : SIMDZippedIterator Z γ} {z : Z}
    (h : BuiltZip c Z γ zi z) :
    (SIMDZippedIterator.next c z).isSafe ∧ (SIMDZippedIterator.end_ c z).isSafe ∧
    (∀ k, (SIMDZippedIterator.advance c z k).isSafe) ∧ (zfinalize c z).isSafe ∧
    (SIMDZippedIterator.len c z).isSafe ∧ (SIMDZippedIterator.scalarPos c z).isSafe ∧
    (SIMDZippedIterator.scalarLen c z).isSafe ∧
    (∀ (fuel : Nat) (σ : Type) (st : σ) (f : FnMut σ γ Unit), SafeFn f →
      (zsimdDoEach c fuel z st f).isSafe) ∧
    (∀ (fuel : Nat) (A σ : Type) (a : A) (st : σ) (f : σ → A → γ → Res (A × σ)), SafeFn2 f →
      (zsimdReduce c fuel z a st f).isSafe) := by
  obtain ⟨P, h1, h2⟩ := builtZip_safe hd h
  exact ⟨(h1.next z h2).isSafe, (h1.end_ z h2).isSafe, fun k => (h1.advance z k h2).isSafe,
    (zfinalize_ensures hd h1 z h2).isSafe, (h1.len z h2).isSafe, (h1.scalarPos z h2).isSafe,
    (h1.scalarLen z h2).isSafe,
    fun fuel σ st f hf => (C79_zip_do_each h1 hf fuel z st h2).isSafe,
    fun fuel A σ a st f hf => (C79_zip_reduce h1 hf fuel z a st h2).isSafe⟩

/-- **C79**: `simd_for_each` on a slice, from any position, and the length of the
slice does not change. -/
theorem C79_slice_for_each {α σ : Type} {w : Nat} [Packable α] (hd : c.debug = true)
    (data : List α) (d : Vector α w) (p : Nat) (f : FnMut σ (Vector α w) (Vector α w))
    (hf : SafeFn f) (fuel : Nat) (st : σ) :
    (simdForEach c fuel st f (iterAt data d p)).1.isSafe :=
  C79_for_each (Q := fun s : Slice α w => s.elems.length = data.length) hd
    { scalarLen := fun a _ => (C79_slice hd).scalarLen a trivial
      load := fun a o _ => (C79_slice hd).load a o trivial
      loadUnchecked := fun a o _ => (C79_slice hd).loadUnchecked a o trivial
      loadScalar := fun a o _ => (C79_slice hd).loadScalar a o trivial
      loadScalarUnchecked := fun a o _ => (C79_slice hd).loadScalarUnchecked a o trivial }
    (C79_slice_mut hd _) hf fuel st _ rfl

/-- The hypothesis on the build is needed: a release build of the same program
writes out of bounds. -/
theorem C79_release : ∃ (x : SIMDIter (Slice (BitVec 8) 2) (BitVec 8) 2),
    IsBuilt release64 x ∧ scalarFill release64 5 x [0] = ub :=
  ⟨simdIter [1, 2, 3, 4] #v[0, 0], .base (.slice _ _), by decide +kernel⟩

/-- A map of a zip of a map and a stride, partly consumed, is covered. -/
example : ∃ (x : SIMDZipMap (Zip (SIMDMap (SIMDIter (Slice (BitVec 8) 2) (BitVec 8) 2) Unit
      (BitVec 8) 2 (BitVec 8) 2) (PackedStride (Slice (BitVec 8) 2) (BitVec 8) 2 × Unit)) Unit
      (Vector (BitVec 8) 2 × Vector (BitVec 8) 2 × Unit) (BitVec 8) 2),
    IsBuilt debug64 x ∧ scalarPos debug64 x = ok 2 := by
  let f : FnMut Unit (Vector (BitVec 8) 2) (Vector (BitVec 8) 2) := fun _ v => ok (v.map (· + 1), ())
  let g : FnMut Unit (Vector (BitVec 8) 2 × Vector (BitVec 8) 2 × Unit) (Vector (BitVec 8) 2) :=
    fun _ v => ok (Vector.zipWith (· + ·) v.1 v.2.1, ())
  let s : PackedStride (Slice (BitVec 8) 2) (BitVec 8) 2 :=
    strideAt ⟨[2, 7, 1, 7, 5, 7]⟩ 2 0 #v[0, 0]
  let m := simdMap (simdIter [1#8, 2, 3] #v[0, 0]) () f
  have hm : IsBuilt debug64 m := .map () f (.base (.slice _ _)) fun _ _ => trivial
  have hl : zip debug64 m (s, ()) = ok ⟨m, (s, ())⟩ := by
    simp [zip, m, s, ZipRest.lenDiffers, SIMDIterable.len, SIMDSized.scalarLen, simdMap, simdIter,
      strideAt, udiv, vectorLen]
  have hz : BuiltZip debug64 _ _ inferInstance (⟨m, (s, ())⟩ : Zip _ _) :=
    .zip (r := (s, ())) hm (.cons (.stride [2, 7, 1, 7, 5, 7] 2 0 #v[0, 0]) .nil) hl
  have hx : IsBuilt debug64 (zsimdMap (⟨m, (s, ())⟩ : Zip _ _) () g) :=
    .zipMap () g hz fun _ _ => trivial
  have hn : (next debug64 (zsimdMap (⟨m, (s, ())⟩ : Zip _ _) () g) >>= fun r =>
      scalarPos debug64 r.2) = ok 2 := by decide +kernel
  cases h : next debug64 (zsimdMap (⟨m, (s, ())⟩ : Zip _ _) () g) with
  | ok r => rw [h] at hn; exact ⟨r.2, hx.next h, hn⟩
  | _ => rw [h] at hn; cases hn

end Faster
