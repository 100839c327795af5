import Verif.Props.ZipOrder
import Verif.Props.Stride
/-
C161: a collection zipped with itself, or with collections whose elements and defaults are computed from its
own. One pass over the collection alone, which computes the other columns, does the same.
-/
namespace Faster
open Res SIMDSized SIMDIterable SIMDIterator

section
variable {I R α γ δ : Type} {w : Nat} [SIMDSized I] [SIMDIterator I α w] [Packable α] [ZipRest R γ]
  [LawfulRest R γ δ w] {c : Cfg} {S : Nat → I} {r : R} {l : List α} {d : Vector α w}
  {more : Nat → Prop}

/-- The tuple the closure of a zip gets, if its first vector is `v` and the other columns are computed by
`g`. -/
def withColumns (R : Type) {α γ δ : Type} {w : Nat} [ZipRest R γ] [LawfulRest R γ δ w] (g : α → δ)
    (v : Vector α w) : Vector α w × γ := (v, LawfulRest.pack R (v.map g))

omit [Packable α] in
theorem columns_rows (g : α → δ) (l : List α) (d : Vector α w) :
    (l.map fun x => (x, g x)).map Prod.fst = l ∧ (d.map fun x => (x, g x)).map Prod.fst = d ∧
    (l.map fun x => (x, g x)).map Prod.snd = l.map g ∧ (d.map fun x => (x, g x)).map Prod.snd = d.map g := by
  refine ⟨?_, ?_, ?_, ?_⟩
  · rw [List.map_map]; exact List.map_id _
  · ext i hi; simp
  · rw [List.map_map]; rfl
  · ext i hi; simp

omit [Packable α] in
theorem columns_calls (g : α → δ) (hw : 0 < w) (l : List α) (d : Vector α w) :
    (calls w (d.map fun x => (x, g x)) (l.map fun x => (x, g x))).map (packRow R) =
      (calls w d l).map (withColumns R g) := by
  rw [calls_map hw, List.map_map]
  apply List.map_congr_left
  intro v _
  have h1 : (v.map fun x => (x, g x)).map Prod.fst = v := by ext i hi; simp
  have h2 : (v.map fun x => (x, g x)).map Prod.snd = v.map g := by ext i hi; simp
  simp only [Function.comp_def, packRow, withColumns, h1, h2]

/-- **C161**, `simd_reduce`, any closure: also the state of its captured variables is the same. -/
theorem C161_reduce {A σ : Type} (g : α → δ) (hd : Driver c S l d more)
    (hr : LawfulRest.Rep c r (l.map g) (d.map g)) (hw : 0 < w) (hu : l.length + w < c.usize) (fuel : Nat)
    (start : A) (st : σ) (f : σ → A → Vector α w × γ → Res (A × σ)) (hfuel : l.length / w < fuel) :
    (do
      let z ← zip c (S 0) r
      let (_, acc) ← zsimdReduce c fuel z start st f
      ok acc) = (do
      let (_, acc) ← simdReduce c fuel (S 0) start st fun st a v => f st a (withColumns R g v)
      ok acc) := by
  obtain ⟨e1, e2, e3, e4⟩ := columns_rows g l d
  have h1 := C24_zip_reduce_general (rows := l.map fun x => (x, g x)) (dv := d.map fun x => (x, g x))
    (by rw [e1, e2]; exact hd) hw (by rw [e3, e4]; exact hr) (by simpa using hu) fuel start st f
    (by simpa using hfuel)
  rw [← bind_assoc, h1, columns_calls g hw, hd.reduce fuel start st _ hw hfuel]
  simp only [bind_assoc, ok_bind]
  rw [List.foldlM_map]

/-- **C161**, `simd_do_each`, any closure. -/
theorem C161_do_each {σ : Type} (g : α → δ) (hd : Driver c S l d more)
    (hr : LawfulRest.Rep c r (l.map g) (d.map g)) (hw : 0 < w) (hu : l.length + w < c.usize) (fuel : Nat)
    (st : σ) (f : FnMut σ (Vector α w × γ) Unit) (hfuel : l.length / w < fuel) :
    (do
      let z ← zip c (S 0) r
      let (_, st') ← zsimdDoEach c fuel z st f
      ok st') = (do
      let (_, st') ← simdDoEach c fuel (S 0) st fun st v => f st (withColumns R g v)
      ok st') := by
  obtain ⟨e1, e2, e3, e4⟩ := columns_rows g l d
  have h1 := C24_zip_do_each_general (rows := l.map fun x => (x, g x)) (dv := d.map fun x => (x, g x))
    (by rw [e1, e2]; exact hd) hw (by rw [e3, e4]; exact hr) (by simpa using hu) fuel st f
    (by simpa using hfuel)
  rw [← bind_assoc, h1, columns_calls g hw, hd.do_each fuel st _ hw hfuel]
  simp only [bind_assoc, ok_bind]
  have h2 := callAll_map_congr id (withColumns R g) (fun st v => f st (withColumns R g v)) f
    (fun _ _ => rfl) (calls w d l) st
  rw [List.map_id] at h2
  rw [h2]

/-- **C161**, `simd_map` and `scalar_collect`, any closure. -/
theorem C161_collect {σ β : Type} [Packable β] {w' : Nat} (g : α → δ) (hd : Driver c S l d more)
    (hr : LawfulRest.Rep c r (l.map g) (d.map g)) (hw : 0 < w) (hw' : 0 < w')
    (hu : l.length + w < c.usize) (fuel : Nat) (st : σ) (f : FnMut σ (Vector α w × γ) (Vector β w'))
    (hs : 0 < Packable.size β) (hsize : w * Packable.size α = w' * Packable.size β)
    (hlen' : (l.length / w + 1) * w' < c.usize) (hvec : w * Packable.size α < c.usize)
    (hfuel : l.length / w < fuel) :
    (do
      let z ← zip c (S 0) r
      let (_, out) ← scalarCollect c fuel (zsimdMap z st f)
      ok out) = (do
      let (_, out) ← scalarCollect c fuel (simdMap (S 0) st fun st v => f st (withColumns R g v))
      ok out) := by
  obtain ⟨e1, e2, e3, e4⟩ := columns_rows g l d
  have h1 := zip_collect_any (rows := l.map fun x => (x, g x)) (dv := d.map fun x => (x, g x))
    (by rw [e1, e2]; exact hd) hw (by rw [e3, e4]; exact hr) (by simpa using hu) fuel st f hw' hs hsize
    (by simpa using hlen') hvec (by simpa using hfuel)
  have h2 := callAll_map_congr id (withColumns R g) (fun st v => f st (withColumns R g v)) f
    (fun _ _ => rfl) (calls w d l) st
  rw [List.map_id] at h2
  rw [← bind_assoc, h1, columns_calls g hw, hd.collect_map fuel st _ hw hw' hs hsize hlen' hvec hfuel, h2]
  simp only [bind_assoc, ok_bind, List.length_map]

end

section
variable {T R α γ δ : Type} {w : Nat} [SIMDSized T] [SIMDIterable T α w] [SIMDArray T α w] [ZipRest R γ]
  [LawfulRest R γ δ w] {c : Cfg} {r : R}

/-- **C161**: a further copy of a collection in front of the columns computed from it. -/
theorem C161_again (t : T) (l : List α) (d : Vector α w) (g : α → δ) (ht : RepIter c t l d)
    (hr : LawfulRest.Rep c r (l.map g) (d.map g)) :
    LawfulRest.Rep c ((t, r) : T × R) (l.map fun x => (x, g x)) (d.map fun x => (x, g x)) := by
  obtain ⟨e1, e2, e3, e4⟩ := columns_rows (w := w) g l d
  refine ⟨?_, ?_⟩
  · rw [e1, e2]; exact ht
  · rw [e3, e4]; exact hr

end

section
variable {α : Type} {w : Nat} [Packable α] {c : Cfg}

/-- **C161**, a slice zipped with itself, `simd_reduce`: the closure might as well get one vector. -/
theorem C161_slice_reduce {A σ : Type} (xs : List α) (d : Vector α w) (hw : 0 < w)
    (hu : xs.length + w < c.usize) (fuel : Nat) (start : A) (st : σ)
    (f : σ → A → Vector α w × Vector α w × Unit → Res (A × σ)) (hfuel : xs.length / w < fuel) :
    (do
      let z ← zip c (simdIter xs d) (simdIter xs d, ())
      let (_, acc) ← zsimdReduce c fuel z start st f
      ok acc) = (do
      let (_, acc) ← simdReduce c fuel (simdIter xs d) start st fun st a v => f st a (v, v, ())
      ok acc) := by
  have h := C161_reduce (r := ((simdIter xs d, ()) : SIMDIter (Slice α w) α w × Unit)) (fun x => (x, ()))
    (simdIter_driver (represents_slice c xs) d hw hu)
    (C161_again (simdIter xs d) xs d (fun _ => ()) (repIter_simdIter c xs 0 d hw (by omega)) trivial)
    hw hu fuel start st f hfuel
  simp only [withColumns, LawfulRest.pack, Vector.map_map, Function.comp_def, Vector.map_id_fun', id] at h
  exact h

/-- **C161**, a slice zipped with itself, `simd_map` and `scalar_collect`. -/
theorem C161_slice_collect {σ β : Type} [Packable β] {w' : Nat} (xs : List α) (d : Vector α w) (hw : 0 < w)
    (hw' : 0 < w') (hu : xs.length + w < c.usize) (fuel : Nat) (st : σ)
    (f : FnMut σ (Vector α w × Vector α w × Unit) (Vector β w'))
    (hs : 0 < Packable.size β) (hsize : w * Packable.size α = w' * Packable.size β)
    (hlen' : (xs.length / w + 1) * w' < c.usize) (hvec : w * Packable.size α < c.usize)
    (hfuel : xs.length / w < fuel) :
    (do
      let z ← zip c (simdIter xs d) (simdIter xs d, ())
      let (_, out) ← scalarCollect c fuel (zsimdMap z st f)
      ok out) = (do
      let (_, out) ← scalarCollect c fuel (simdMap (simdIter xs d) st fun st v => f st (v, v, ()))
      ok out) := by
  have h := C161_collect (r := ((simdIter xs d, ()) : SIMDIter (Slice α w) α w × Unit)) (fun x => (x, ()))
    (simdIter_driver (represents_slice c xs) d hw hu)
    (C161_again (simdIter xs d) xs d (fun _ => ()) (repIter_simdIter c xs 0 d hw (by omega)) trivial)
    hw hw' hu fuel st f hs hsize hlen' hvec hfuel
  simp only [withColumns, LawfulRest.pack, Vector.map_map, Function.comp_def, Vector.map_id_fun', id] at h
  exact h

/-- **C161**, a strided iterator zipped with itself, `simd_reduce`. -/
theorem C161_stride_reduce {A σ : Type} (xs : List α) {s k : Nat} (hk : k < s) (d : Vector α w) (hw : 0 < w)
    (hu : xs.length + s * (w + 1) < c.usize) (fuel : Nat) (start : A) (st : σ)
    (f : σ → A → Vector α w × Vector α w × Unit → Res (A × σ)) (hfuel : xs.length / s / w < fuel) :
    (do
      let z ← zip c (strideAt (⟨xs⟩ : Slice α w) s k d) (strideAt (⟨xs⟩ : Slice α w) s k d, ())
      let (_, acc) ← zsimdReduce c fuel z start st f
      ok acc) = (do
      let (_, acc) ← simdReduce c fuel (strideAt (⟨xs⟩ : Slice α w) s k d) start st
        fun st a v => f st a (v, v, ())
      ok acc) := by
  obtain ⟨S, more, hd, h0, -⟩ := strideAt_driver c xs hk d hw hu
  have hl : (strided s k xs hk).length = xs.length / s := strided_length ..
  have h1 := Nat.div_le_self xs.length s
  have h2 : w + 1 ≤ s * (w + 1) := Nat.le_mul_of_pos_left _ (by omega)
  have h := C161_reduce (r := ((strideAt (⟨xs⟩ : Slice α w) s k d, ()) : PackedStride (Slice α w) α w × Unit))
    (fun x => (x, ())) hd (C161_again (strideAt (⟨xs⟩ : Slice α w) s k d) (strided s k xs hk) d (fun _ => ())
      (repIter_strideAt c xs hk d hw hu) trivial) hw (by omega) fuel start st f (by rwa [hl])
  simp only [withColumns, LawfulRest.pack, Vector.map_map, Function.comp_def, Vector.map_id_fun', id] at h
  rw [h0] at h
  exact h

end

/-- Seven elements zipped with themselves: the closure gets each vector twice. -/
example : seenPairs debug64 [1, 2, 3, 4, 5, 6, 7] [1, 2, 3, 4, 5, 6, 7] =
    ok [([1, 2, 3, 4], [1, 2, 3, 4]), ([0, 5, 6, 7], [0, 5, 6, 7])] := by decide +kernel

/-- The hypotheses of the theorems for these elements and three columns: the element, its double, and
whether it is zero. -/
example : LawfulRest.Rep release64
    ((simdIter ([1, 2, 3].map (· * 2)) (Vector.replicate 4 0), simdIter ([1, 2, 3].map (· == 0)) (Vector.replicate 4 true), ()) :
      SIMDIter (Slice Nat 4) Nat 4 × SIMDIter (Slice Bool 4) Bool 4 × Unit)
    ([1, 2, 3].map fun x => (x * 2, x == 0, ())) ((Vector.replicate 4 0).map fun x => (x * 2, x == 0, ())) :=
  have h1 := repIter_simdIter release64 [2, 4, 6] 0 (Vector.replicate 4 0) (by decide) (by decide)
  have h2 := repIter_simdIter release64 [false, false, false] 0 (Vector.replicate 4 true) (by decide) (by decide)
  ⟨by simpa [simdIter] using h1, by simpa [simdIter] using h2, trivial⟩

/-- The default vectors must agree: otherwise the closure gets different vectors at the end. -/
theorem C161_defaults : ∃ (xs : List (BitVec 8)) (d d' : Vector (BitVec 8) 4),
    (do
      let z ← zip debug64 (simdIter xs d) (simdIter xs d', ())
      let (_, acc, _) ← zsimdReduce debug64 9 z true () fun _ a
        (v : Vector (BitVec 8) 4 × Vector (BitVec 8) 4 × Unit) => ok (a && v.1.toList == v.2.1.toList, ())
      ok acc) = ok false ∧ ∀ d'' : Vector (BitVec 8) 4, (do
      let (_, acc, _) ← simdReduce debug64 9 (simdIter xs d'') true () fun _ a v =>
        ok (a && v.toList == v.toList, ())
      ok acc) = ok true := by
  refine ⟨[1], Packed.splat 0, Packed.splat 1, by decide +kernel, fun d'' => ?_⟩
  rw [C03_reduce_fold debug64 9 [1] d'' true () _ (by decide) (by decide) (by decide)]
  have h : ∀ (vs : List (Vector (BitVec 8) 4)),
      vs.foldlM (fun (p : Bool × Unit) v => (ok (p.1 && v.toList == v.toList, ()) : Res (Bool × Unit))) (true, ()) =
        ok (true, ()) := by
    intro vs
    induction vs with
    | nil => rfl
    | cons v vs ih => rw [List.foldlM_cons]; simpa using ih
  have h' := h (calls 4 d'' [1])
  simp only [bind_assoc, ok_bind]
  exact (congrArg (fun r => r >>= fun p => ok p.1) h').trans rfl

end Faster
