import Verif.Lemmas.Pow
import Verif.Props.Stride
/-
C21–C24, C28 and the zip parts of C33 and C34.

Zips of two slices are stated explicitly. Zips of `n + 1` collections of one
element type use tuples `PowT`. The theorems named `…_general` cover tuples of
any arity whose components have different element types and are slice iterators
or strided iterators at any position; they describe the collections by one list
`rows` of tuples of scalars.
-/
namespace Faster
open Res SIMDSized SIMDIterable SIMDIterator

/-! Helpers. -/

theorem fullWindows_map {α β : Type} {w : Nat} (g : α → β) (l : List α) :
    fullWindows w (l.map g) = (fullWindows w l).map (Vector.map g) := by
  apply List.ext_getElem
  · simp [fullWindows]
  · intro i h1 h2
    ext j hj
    simp [fullWindows]

theorem leftover_map {α β : Type} (w : Nat) (g : α → β) (l : List α) :
    leftover w (l.map g) = (leftover w l).map g := by simp [leftover]

theorem calls_map {α β : Type} {w : Nat} (hw : 0 < w) (g : α → β) (d : Vector α w) (l : List α) :
    calls w (d.map g) (l.map g) = (calls w d l).map (Vector.map g) := by
  have h1 := leftover_length w l
  have h2 := Nat.mod_lt l.length hw
  simp only [calls, fullWindows_map, leftover_map, List.length_map, List.map_append]
  congr 1
  split
  · rfl
  · rw [padFront_map _ _ _ (by omega)]; rfl

theorem repIter_simdIter {α : Type} {w : Nat} (c : Cfg) (l : List α) (q : Nat) (d : Vector α w)
    (hw : 0 < w) (hu : l.length + w < c.usize) :
    RepIter c (⟨q, ⟨l⟩, d⟩ : SIMDIter (Slice α w) α w) l d where
  rep := represents_iter (represents_slice c l) q d
  dflt := rfl
  len := (simdIter_driver (represents_slice c l) d hw hu).len q

theorem repIter_strideAt {α : Type} [Packable α] {w : Nat} (c : Cfg) (l : List α) {s k : Nat}
    (hk : k < s) (d : Vector α w) (hw : 0 < w) (hu : l.length + s * (w + 1) < c.usize) :
    RepIter c (strideAt (⟨l⟩ : Slice α w) s k d) (strided s k l hk) d where
  rep := represents_stride (represents_slice c l) hk k d hw hu
  dflt := rfl
  len := (stride_driver (represents_slice c l) hk d hw hu).len 0

/-! ### Any arity -/

section General
variable {I R α γ δ : Type} {w : Nat} [SIMDSized I] [SIMDIterator I α w] [Packable α]
  [ZipRest R γ] [LawfulRest R γ δ w] {c : Cfg} {S : Nat → I} {r : R} {rows : List (α × δ)}
  {dv : Vector (α × δ) w} {more : Nat → Prop}

/-- **C21**, any arity: with a closure which computes `g` on every tuple of
lanes, the result is `g` of the tuples of elements. -/
theorem C21_zip_general {β : Type} [Packable β]
    (hd : Driver c S (rows.map Prod.fst) (dv.map Prod.fst) more) (hw : 0 < w)
    (hr : LawfulRest.Rep c r (rows.map Prod.snd) (dv.map Prod.snd))
    (hu : rows.length + w < c.usize) (fuel : Nat) (F : Vector α w × γ → Vector β w) (g : α × δ → β)
    (hF : ∀ v : Vector (α × δ) w, F (packRow R v) = v.map g)
    (hs : 0 < Packable.size β) (hsize : Packable.size α = Packable.size β)
    (hvec : w * Packable.size α < c.usize) (hfuel : rows.length / w < fuel) :
    (do
      let z ← zip c (S 0) r
      let (_, out) ← scalarCollect c fuel (zsimdMap z () (pureFn F))
      ok out) = ok ((rows.map g).map some) := by
  have h1 := Nat.div_mul_le_self rows.length w
  have h := zip_collect_any hd hw hr hu fuel () (pureFn F) hw hs (by rw [hsize])
    (by rw [Nat.succ_mul]; omega) hvec hfuel
  rw [callAll_pure] at h
  simp only [ok_bind] at h
  rw [← bind_assoc, h]
  simp only [ok_bind]
  rw [← hsize, Nat.mul_div_cancel _ (by omega), List.map_map,
    show F ∘ packRow R = Vector.map g from funext hF, unpad_map, unpad_calls hw]

/-- **C24**, any arity, `simd_do_each`. -/
theorem C24_zip_do_each_general {σ : Type}
    (hd : Driver c S (rows.map Prod.fst) (dv.map Prod.fst) more) (hw : 0 < w)
    (hr : LawfulRest.Rep c r (rows.map Prod.snd) (dv.map Prod.snd))
    (hu : rows.length + w < c.usize) (fuel : Nat) (st : σ)
    (f : FnMut σ (Vector α w × γ) Unit) (hfuel : rows.length / w < fuel) :
    (do
      let z ← zip c (S 0) r
      zsimdDoEach c fuel z st f) = (do
      let (_, st') ← callAll f st ((calls w dv rows).map (packRow R))
      ok (⟨S rows.length, r⟩, st')) :=
  zip_do_each hd hw hr hu fuel st f hfuel

/-- **C24**, any arity, `simd_reduce`. -/
theorem C24_zip_reduce_general {A σ : Type}
    (hd : Driver c S (rows.map Prod.fst) (dv.map Prod.fst) more) (hw : 0 < w)
    (hr : LawfulRest.Rep c r (rows.map Prod.snd) (dv.map Prod.snd))
    (hu : rows.length + w < c.usize) (fuel : Nat) (start : A) (st : σ)
    (f : σ → A → Vector α w × γ → Res (A × σ)) (hfuel : rows.length / w < fuel) :
    (do
      let z ← zip c (S 0) r
      zsimdReduce c fuel z start st f) = (do
      let (acc, st') ← ((calls w dv rows).map (packRow R)).foldlM
        (fun (acc, st) v => f st acc v) (start, st)
      ok (⟨S rows.length, r⟩, acc, st')) :=
  zip_reduce hd hw hr hu fuel start st f hfuel

omit [SIMDSized I] [SIMDIterator I α w] [Packable α] in
/-- The tuples of calls used above: the first components are the calls for the
first column, and the rest is built in the same way from the other columns. -/
theorem C24_calls_columns (hw : 0 < w) (rows : List (α × δ)) (dv : Vector (α × δ) w) :
    ((calls w dv rows).map (packRow R)).map Prod.fst =
      calls w (dv.map Prod.fst) (rows.map Prod.fst) ∧
    ((calls w dv rows).map (packRow R)).map Prod.snd =
      (calls w (dv.map Prod.snd) (rows.map Prod.snd)).map (LawfulRest.pack R) := by
  rw [calls_map hw, calls_map hw, List.map_map, List.map_map, List.map_map]
  exact ⟨rfl, rfl⟩

end General

/-! ### Two slices -/

section Two
variable {α β : Type} [Packable α] {w : Nat} (c : Cfg) (xs : List α) (ys : List β)
  (dx : Vector α w) (dy : Vector β w) (q : Nat)

/-- The rows of two columns. -/
def rows2 {α β : Type} (xs : List α) (ys : List β) : List (α × β × Unit) :=
  List.zipWith (fun a b => (a, b, ())) xs ys

omit [Packable α] in
theorem rows2_spec (h : xs.length = ys.length) (hw : 0 < w) (hu : xs.length + w < c.usize) :
    let dv := Vector.zipWith (fun a b => (a, b, ())) dx dy
    (rows2 xs ys).length = xs.length ∧
    Driver c (fun p => (⟨p, ⟨xs⟩, dx⟩ : SIMDIter (Slice α w) α w)) ((rows2 xs ys).map Prod.fst)
      (dv.map Prod.fst) (fun p => p + w ≤ xs.length) ∧
    LawfulRest.Rep c ((⟨q, ⟨ys⟩, dy⟩, ()) : SIMDIter (Slice β w) β w × Unit)
      ((rows2 xs ys).map Prod.snd) (dv.map Prod.snd) := by
  have e1 : (rows2 xs ys).map Prod.fst = xs := by
    apply List.ext_getElem <;> simp [rows2, h]
  have e2 : ((rows2 xs ys).map Prod.snd).map Prod.fst = ys := by
    apply List.ext_getElem <;> simp [rows2, h]
  have e3 : (Vector.zipWith (fun a b => (a, b, ())) dx dy).map Prod.fst = dx := by
    ext i hi; simp
  have e4 : ((Vector.zipWith (fun a b => (a, b, ())) dx dy).map Prod.snd).map Prod.fst = dy := by
    ext i hi; simp
  refine ⟨by simp [rows2, h], ?_, ?_⟩
  · rw [e1, e3]
    exact simdIter_driver (represents_slice c xs) dx hw hu
  · refine ⟨?_, trivial⟩
    rw [e2, e4]
    exact repIter_simdIter c ys q dy hw (by omega)

/-- **C21**, two slices of any scalar types with the same lane width: zipping,
mapping a lane-wise function and collecting is `zipWith`. -/
theorem C21_zip_two {γ : Type} [Packable γ] (fuel : Nat) (g : α → β → γ)
    (h : xs.length = ys.length) (hw : 0 < w) (hu : xs.length + w < c.usize)
    (hs : 0 < Packable.size γ) (hsize : Packable.size α = Packable.size γ)
    (hvec : w * Packable.size α < c.usize) (hfuel : xs.length / w < fuel) :
    (do
      let z ← zip c (simdIter xs dx) (simdIter ys dy, ())
      let (_, out) ← scalarCollect c fuel
        (zsimdMap z () (pureFn fun (v : Vector α w × Vector β w × Unit) =>
          Vector.zipWith g v.1 v.2.1))
      ok out) = ok ((List.zipWith g xs ys).map some) := by
  obtain ⟨h1, h2, h3⟩ := rows2_spec c xs ys dx dy 0 h hw hu
  have := C21_zip_general h2 hw h3 (by omega) fuel
    (fun v => Vector.zipWith g v.1 v.2.1) (fun t => g t.1 t.2.1)
    (by intro v; ext i hi; simp [packRow, LawfulRest.pack]) hs hsize hvec (by rwa [h1])
  rw [show List.zipWith g xs ys = (rows2 xs ys).map fun t => g t.1 t.2.1 by
    apply List.ext_getElem <;> simp [rows2]]
  exact this

omit [Packable α] in
theorem calls_two (h : xs.length = ys.length) (hw : 0 < w) :
    (calls w (Vector.zipWith (fun a b => (a, b, ())) dx dy) (rows2 xs ys)).map
      (packRow (SIMDIter (Slice β w) β w × Unit)) =
      List.zipWith (fun u v => (u, v, ())) (calls w dx xs) (calls w dy ys) := by
  have e1 : (rows2 xs ys).map Prod.fst = xs := by
    apply List.ext_getElem <;> simp [rows2, h]
  have e2 : (rows2 xs ys).map (fun t => t.2.1) = ys := by
    apply List.ext_getElem <;> simp [rows2, h]
  have e3 : (Vector.zipWith (fun a b => (a, b, ())) dx dy).map Prod.fst = dx := by
    ext i hi; simp
  have e4 : (Vector.zipWith (fun a b => (a, b, ())) dx dy).map (fun t => t.2.1) = dy := by
    ext i hi; simp
  have h1 := calls_map hw Prod.fst (Vector.zipWith (fun a b => (a, b, ())) dx dy) (rows2 xs ys)
  have h2 := calls_map hw (fun t => t.2.1) (Vector.zipWith (fun a b => (a, b, ())) dx dy)
    (rows2 xs ys)
  rw [e1, e3] at h1
  rw [e2, e4] at h2
  rw [h1, h2, List.zipWith_map, List.zipWith_self]
  apply List.map_congr_left
  intro v _
  simp only [packRow, LawfulRest.pack, Vector.map_map]
  rfl

/-- **C21**, any closure: the closure is called with the tuple of the calls for
each collection, and the results are collected without the lanes which are empty
in the last call. -/
theorem C21_zip_two_any {γ σ : Type} [Packable γ] {w' : Nat} (fuel : Nat) (st : σ)
    (f : FnMut σ (Vector α w × Vector β w × Unit) (Vector γ w'))
    (h : xs.length = ys.length) (hw : 0 < w) (hu : xs.length + w < c.usize) (hw' : 0 < w')
    (hs : 0 < Packable.size γ) (hsize : w * Packable.size α = w' * Packable.size γ)
    (hlen' : (xs.length / w + 1) * w' < c.usize)
    (hvec : w * Packable.size α < c.usize) (hfuel : xs.length / w < fuel) :
    (do
      let z ← zip c (simdIter xs dx) (simdIter ys dy, ())
      let (_, out) ← scalarCollect c fuel (zsimdMap z st f)
      ok out) = (do
      let (outs, _) ← callAll f st
        (List.zipWith (fun u v => (u, v, ())) (calls w dx xs) (calls w dy ys))
      ok ((unpad ((w - xs.length % w) % w * Packable.size α / Packable.size γ) outs).map some)) := by
  obtain ⟨h1, h2, h3⟩ := rows2_spec c xs ys dx dy 0 h hw hu
  have := zip_collect_any h2 hw h3 (by omega) fuel st f hw' hs hsize (by rwa [h1]) hvec
    (by rwa [h1])
  rw [calls_two xs ys dx dy h hw, h1] at this
  rw [← bind_assoc]
  refine (congrArg (· >>= fun p => ok p.2) this).trans ?_
  simp only [bind_assoc, ok_bind]

/-- **C24**, `simd_do_each`, two slices. -/
theorem C24_zip_do_each {σ : Type} (fuel : Nat) (st : σ)
    (f : FnMut σ (Vector α w × Vector β w × Unit) Unit)
    (h : xs.length = ys.length) (hw : 0 < w) (hu : xs.length + w < c.usize)
    (hfuel : xs.length / w < fuel) :
    (do
      let z ← zip c (simdIter xs dx) (simdIter ys dy, ())
      let (_, st') ← zsimdDoEach c fuel z st f
      ok st') = (do
      let (_, st') ← callAll f st
        (List.zipWith (fun u v => (u, v, ())) (calls w dx xs) (calls w dy ys))
      ok st') := by
  obtain ⟨h1, h2, h3⟩ := rows2_spec c xs ys dx dy 0 h hw hu
  have := zip_do_each h2 hw h3 (by omega) fuel st f (by rwa [h1])
  rw [calls_two xs ys dx dy h hw] at this
  rw [← bind_assoc]
  refine (congrArg (· >>= fun p => ok p.2) this).trans ?_
  simp only [bind_assoc, ok_bind]

/-- **C24**, `simd_reduce`, two slices: the left fold over the tuples of calls. -/
theorem C24_zip_reduce {A σ : Type} (fuel : Nat) (start : A) (st : σ)
    (f : σ → A → Vector α w × Vector β w × Unit → Res (A × σ))
    (h : xs.length = ys.length) (hw : 0 < w) (hu : xs.length + w < c.usize)
    (hfuel : xs.length / w < fuel) :
    (do
      let z ← zip c (simdIter xs dx) (simdIter ys dy, ())
      let (_, acc, st') ← zsimdReduce c fuel z start st f
      ok (acc, st')) =
      (List.zipWith (fun u v => (u, v, ())) (calls w dx xs) (calls w dy ys)).foldlM
        (fun (p : A × σ) v => f p.2 p.1 v) (start, st) := by
  obtain ⟨h1, h2, h3⟩ := rows2_spec c xs ys dx dy 0 h hw hu
  have := zip_reduce h2 hw h3 (by omega) fuel start st f (by rwa [h1])
  rw [calls_two xs ys dx dy h hw] at this
  rw [← bind_assoc]
  refine (congrArg (· >>= fun p => ok p.2) this).trans ?_
  simp only [bind_assoc, ok_bind]
  exact bind_pure _

end Two

example : (do
    let z ← zip debug64 (simdIter [1#8, 2, 3, 4, 5] #v[0#8, 0]) (simdIter [10#8, 20, 30, 40, 50] #v[7#8, 7], ())
    let (_, out) ← scalarCollect debug64 9
      (zsimdMap z () (pureFn fun (v : Vector (BitVec 8) 2 × Vector (BitVec 8) 2 × Unit) =>
        Vector.zipWith (· + ·) v.1 v.2.1))
    ok out) = ok ([11#8, 22, 33, 44, 55].map some) := by decide +kernel

/-- The tuples of the calls: the second vector of the last one has its own default. -/
example : (do
    let z ← zip debug64 (simdIter [1#8, 2, 3] #v[0#8, 0]) (simdIter [10#8, 20, 30] #v[7#8, 7], ())
    let (_, log) ← zsimdDoEach debug64 9 z []
      (fun (log : List (Vector (BitVec 8) 2 × Vector (BitVec 8) 2)) v => ok ((), log ++ [(v.1, v.2.1)]))
    ok log) = ok [(#v[1, 2], #v[10, 20]), (#v[0, 3], #v[7, 30])] := by decide +kernel

/-! ### `n + 1` collections of one element type -/

/-- The function on tuples of vectors which applies `g` to each lane. -/
def laneFn {α β : Type} {w n : Nat} (g : List α → β) (v : Vector α w × PowT (Vector α w) n) :
    Vector β w :=
  Vector.ofFn fun j => g ((v.1 :: PowT.toList v.2).map (·[j]))

theorem zip_pow_collect {T α β : Type} [Packable α] [Packable β] {w : Nat} [SIMDSized T]
    [SIMDIterator T α w] [SIMDArray T α w] {c : Cfg} {S : Nat → T} {more : Nat → Prop}
    (F : Nat → T) (f : Nat → Nat → α) (D : Nat → Vector α w) (N n : Nat)
    (hd : Driver c S ((List.range N).map (f 0)) (D 0) more) (hS : S 0 = F 0)
    (hr : ∀ k, 1 ≤ k → k ≤ n → RepIter c (F k) ((List.range N).map (f k)) (D k))
    (hw : 0 < w) (hu : N + w < c.usize) (fuel : Nat) (g : List α → β)
    (hs : 0 < Packable.size β) (hsize : Packable.size α = Packable.size β)
    (hvec : w * Packable.size α < c.usize) (hfuel : N / w < fuel) :
    (do
      let z ← zip c (F 0) (PowT.mk F n 1)
      let (_, out) ← scalarCollect c fuel (zsimdMap z () (pureFn (laneFn (w := w) (n := n) g)))
      ok out) =
      ok (((List.range N).map fun i => g ((List.range (n + 1)).map (f · i))).map some) := by
  have h1 := PowT.rep (c := c) F f D N n 1 (fun k a b => hr k a (by omega))
  have key := C21_zip_general (c := c) (S := S) (r := PowT.mk F n 1) (more := more)
    (rows := (List.range N).map fun i => (f 0 i, PowT.mk (fun m => f m i) n 1))
    (dv := Vector.ofFn (n := w) fun j => ((D 0)[j], PowT.mk (fun m => (D m)[j]) n 1))
    (by
      rw [List.map_map, show (Vector.map Prod.fst (Vector.ofFn (n := w) fun j =>
        ((D 0)[j], PowT.mk (fun m => (D m)[j]) n 1))) = D 0 by ext j hj; simp]
      exact hd) hw
    (by
      rw [List.map_map, show (Vector.map Prod.snd (Vector.ofFn (n := w) fun j =>
        ((D 0)[j], PowT.mk (fun m => (D m)[j]) n 1))) =
          Vector.ofFn (n := w) fun j => PowT.mk (fun m => (D m)[j]) n 1 by ext j hj; simp]
      exact h1)
    (by simpa using hu) fuel (laneFn g) (fun t => g (t.1 :: PowT.toList t.2))
    (by
      intro v
      ext j hj
      simp only [laneFn, packRow, Vector.getElem_ofFn, List.map_cons, Vector.getElem_map]
      congr 2
      · simp
      have := PowT.pack_lane (T := T) j hj n (v.map Prod.snd)
      rw [Vector.getElem_map] at this
      exact this) hs hsize hvec (by simpa using hfuel)
  rw [hS] at key
  rw [key]
  simp only [List.map_map]
  congr 1
  apply List.map_congr_left
  intro i _
  simp [PowT.toList_mk, List.range_eq_range', List.range'_succ]

/-- **C21**, every arity `n + 1`: zipping `n + 1` slices of one length, mapping a
function of `n + 1` arguments lane by lane and collecting gives, for each `i`,
the function of the `i`-th elements. -/
theorem C21_zip_every_arity {α β : Type} [Packable α] [Packable β] {w : Nat} (c : Cfg) (n N : Nat)
    (cols : Nat → List α) (D : Nat → Vector α w) (hN : ∀ k, k ≤ n → (cols k).length = N)
    (hw : 0 < w) (hu : N + w < c.usize) (fuel : Nat) (g : List α → β)
    (hs : 0 < Packable.size β) (hsize : Packable.size α = Packable.size β)
    (hvec : w * Packable.size α < c.usize) (hfuel : N / w < fuel) :
    (do
      let z ← zip c (simdIter (cols 0) (D 0)) (PowT.mk (fun k => simdIter (cols k) (D k)) n 1)
      let (_, out) ← scalarCollect c fuel (zsimdMap z () (pureFn (laneFn (w := w) (n := n) g)))
      ok out) =
      ok (List.ofFn (n := N) fun i => some (g (List.ofFn (n := n + 1) fun k =>
        (cols k)[i]'(by rw [hN k (by omega)]; exact i.isLt)))) := by
  have e : ∀ k, k ≤ n → (List.range N).map (fun i => (cols k).getD i Packable.zero) = cols k := by
    intro k hk
    apply List.ext_getElem
    · simp [hN k hk]
    · intro i h1 h2
      simp [h2]
  have := zip_pow_collect (c := c) (fun k => simdIter (cols k) (D k))
    (fun k i => (cols k).getD i Packable.zero) D N n
    (by rw [e 0 (by omega)]; exact simdIter_driver (represents_slice c (cols 0)) (D 0) hw
          (by rw [hN 0 (by omega)]; exact hu)) rfl
    (by
      intro k _ hk
      rw [e k hk]
      exact repIter_simdIter c (cols k) 0 (D k) hw (by rw [hN k hk]; exact hu))
    hw hu fuel g hs hsize hvec hfuel
  rw [this]
  congr 1
  apply List.ext_getElem
  · simp
  · intro i h1 h2
    simp only [List.getElem_map, List.getElem_range, List.getElem_ofFn]
    congr 2
    apply List.ext_getElem
    · simp
    · intro k h3 h4
      have h5 : i < N := by simpa using h1
      have h6 : i < (cols k).length := by rw [hN k (by simp at h3; omega)]; exact h5
      rw [List.getElem_ofFn]
      simp [h6]

/-! ### C28 -/

/-- `chunks_exact(s)`: the complete groups of `s` consecutive elements. -/
def chunksExact {α : Type} (s : Nat) (l : List α) : List (List α) :=
  (List.range (l.length / s)).map fun i => (l.drop (i * s)).take s

/-- **C28**, every stride `n + 1`: the strided iterators zipped, a function of
`n + 1` arguments lane by lane. -/
theorem C28_zip_strides {α β : Type} [Packable α] [Packable β] {w : Nat} (c : Cfg) (n : Nat)
    (l : List α) (D : Nat → Vector α w)
    (hw : 0 < w) (hu : l.length + (n + 1) * (w + 1) < c.usize) (fuel : Nat) (g : List α → β)
    (hs : 0 < Packable.size β) (hsize : Packable.size α = Packable.size β)
    (hvec : w * Packable.size α < c.usize) (hfuel : l.length / (n + 1) / w < fuel) :
    (do
      let z ← zip c (strideAt (⟨l⟩ : Slice α w) (n + 1) 0 (D 0))
        (PowT.mk (fun k => strideAt (⟨l⟩ : Slice α w) (n + 1) k (D k)) n 1)
      let (_, out) ← scalarCollect c fuel (zsimdMap z () (pureFn (laneFn (w := w) (n := n) g)))
      ok out) = ok (((chunksExact (n + 1) l).map g).map some) := by
  have hle := Nat.div_le_self l.length (n + 1)
  have hw1 : w + 1 ≤ (n + 1) * (w + 1) := Nat.le_mul_of_pos_left _ (by omega)
  have e : ∀ k (hk : k < n + 1), (List.range (l.length / (n + 1))).map
      (fun i => l.getD (k + (n + 1) * i) Packable.zero) = strided (n + 1) k l hk := by
    intro k hk
    apply List.ext_getElem
    · simp
    · intro i h1 h2
      have h3 := strided_index hk (show i < l.length / (n + 1) by simpa using h1)
      simp [strided_getElem, h3]
  have := zip_pow_collect (c := c) (S := fun p => ⟨⟨l⟩, 0 + (n + 1) * p, 0, n + 1, D 0⟩)
    (fun k => strideAt (⟨l⟩ : Slice α w) (n + 1) k (D k))
    (fun k i => l.getD (k + (n + 1) * i) Packable.zero) D (l.length / (n + 1)) n
    (by rw [e 0 (by omega)]; exact stride_driver (represents_slice c l) (by omega) (D 0) hw hu) rfl
    (by
      intro k _ hk
      rw [e k (by omega)]
      exact repIter_strideAt c l (by omega) (D k) hw hu)
    hw (by omega) fuel g hs hsize hvec hfuel
  rw [this, chunksExact]
  simp only [List.map_map]
  congr 1
  apply List.map_congr_left
  intro i hi
  have hi : i < l.length / (n + 1) := by simpa using hi
  have h1 : (n + 1) * (i + 1) ≤ (n + 1) * (l.length / (n + 1)) := Nat.mul_le_mul_left _ hi
  have h2 := Nat.mul_div_le l.length (n + 1)
  have h3 : i * (n + 1) = (n + 1) * i := Nat.mul_comm ..
  rw [Nat.mul_succ] at h1
  simp only [Function.comp]
  congr 2
  apply List.ext_getElem
  · simp; omega
  · intro k h4 h5
    have h6 : k < n + 1 := by simpa using h4
    simp only [List.getElem_map, List.getElem_range, List.getElem_take, List.getElem_drop]
    rw [List.getD_eq_getElem?_getD, List.getElem?_eq_getElem (by omega), Option.getD_some]
    congr 1
    omega

/-- **C28**: the tuples of the fixed-arity stride functions are those of
`C28_zip_strides`. -/
theorem C28_tuples {α : Type} {w : Nat} (a : Slice α w) (D : Nat → Vector α w) :
    let t2 := strideTwo a (D 0, D 1)
    let t3 := strideThree a (D 0, D 1, D 2)
    let t4 := strideFour a (D 0, D 1, D 2, D 3)
    let t9 := strideNine a (D 0, D 1, D 2, D 3, D 4, D 5, D 6, D 7, D 8)
    t2.1 = strideAt a 2 0 (D 0) ∧ (t2.2, ()) = PowT.mk (fun k => strideAt a 2 k (D k)) 1 1 ∧
    t3.1 = strideAt a 3 0 (D 0) ∧
      (t3.2.1, t3.2.2, ()) = PowT.mk (fun k => strideAt a 3 k (D k)) 2 1 ∧
    t4.1 = strideAt a 4 0 (D 0) ∧
      (t4.2.1, t4.2.2.1, t4.2.2.2, ()) = PowT.mk (fun k => strideAt a 4 k (D k)) 3 1 ∧
    t9.1 = strideAt a 9 0 (D 0) ∧
      (t9.2.1, t9.2.2.1, t9.2.2.2.1, t9.2.2.2.2.1, t9.2.2.2.2.2.1, t9.2.2.2.2.2.2.1,
        t9.2.2.2.2.2.2.2.1, t9.2.2.2.2.2.2.2.2, ()) =
        PowT.mk (fun k => strideAt a 9 k (D k)) 8 1 :=
  ⟨rfl, rfl, rfl, rfl, rfl, rfl, rfl, rfl⟩

/-- Determinants of 2×2 matrices; seven full matrices and a half one, two lanes. -/
example : (do
    let t := strideFour (⟨[1#16, 2, 3, 4, 2, 0, 0, 3, 5, 5, 1, 2, 9, 9]⟩ : Slice _ 2)
      (#v[1#16, 1], #v[0, 0], #v[0, 0], #v[1, 1])
    let z ← zip debug64 t.1 (t.2.1, t.2.2.1, t.2.2.2, ())
    let (_, out) ← scalarCollect debug64 9
      (zsimdMap z () (pureFn fun (v : Vector (BitVec 16) 2 × Vector (BitVec 16) 2 ×
        Vector (BitVec 16) 2 × Vector (BitVec 16) 2 × Unit) =>
        (Vector.ofFn fun (j : Fin 2) => v.1[j] * v.2.2.2.1[j] - v.2.1[j] * v.2.2.1[j] :
          Vector (BitVec 16) 2)))
    ok out) = ok ([-2#16, 6, 5].map some) := by decide +kernel

/-! ### C22 -/

section Check
variable {α β : Type} [Packable α] {w w' : Nat}

omit [Packable α] in
/-- **C22**, exactly what is checked: `zip` accepts two slices iff they have the
same number of full *vectors*. -/
theorem C22_zip_check (c : Cfg) (xs : List α) (ys : List β) (dx : Vector α w) (dy : Vector β w')
    (hw : 0 < w) (hw' : 0 < w') (hx : xs.length + w < c.usize) (hy : ys.length + w' < c.usize) :
    zip c (simdIter xs dx) (simdIter ys dy, ()) =
      if xs.length / w = ys.length / w' then ok ⟨simdIter xs dx, (simdIter ys dy, ())⟩
      else panic := by
  have h1 : SIMDIterable.len c (simdIter xs dx) = ok (xs.length / w) :=
    (simdIter_driver (represents_slice c xs) dx hw hx).len 0
  have h2 : SIMDIterable.len c (simdIter ys dy) = ok (ys.length / w') :=
    (simdIter_driver (represents_slice c ys) dy hw' hy).len 0
  simp only [zip, h1, ok_bind, ZipRest.lenDiffers, h2]
  by_cases h : xs.length / w = ys.length / w' <;> simp [h]

/-- **C22 is false**: collections of five and six elements are accepted. -/
theorem C22_false : ∃ (xs ys : List (BitVec 8)) (z : Zip (SIMDIter (Slice (BitVec 8) 4) (BitVec 8) 4)
      (SIMDIter (Slice (BitVec 8) 4) (BitVec 8) 4 × Unit)),
    xs.length ≠ ys.length ∧
    zip debug64 (simdIter xs (Vector.replicate 4 0)) (simdIter ys (Vector.replicate 4 0), ()) = ok z :=
  ⟨[1, 2, 3, 4, 5], [1, 2, 3, 4, 5, 6], _, by decide, by
    rw [C22_zip_check debug64 _ _ _ _ (by decide) (by decide) (by decide) (by decide)]
    exact if_pos (by decide)⟩

omit [Packable α] in
/-- **C22**, the part which holds, for every arity: if some collection has
another number of full vectors than the first, `zip` panics. Missing: lengths
which differ within the last vector (`C22_zip_check`, `C22_false`). -/
theorem C22_zip_rejects_partial (c : Cfg) (n : Nat) (cols : Nat → List α) (D : Nat → Vector α w)
    (hw : 0 < w) (hu : ∀ k, (cols k).length + w < c.usize)
    (k : Nat) (h1 : 1 ≤ k) (hk : k ≤ n) (hne : (cols k).length / w ≠ (cols 0).length / w) :
    zip c (simdIter (cols 0) (D 0)) (PowT.mk (fun k => simdIter (cols k) (D k)) n 1) = panic := by
  have hlen : ∀ k, SIMDIterable.len c (simdIter (cols k) (D k)) = ok ((cols k).length / w) :=
    fun k => (simdIter_driver (represents_slice c (cols k)) (D k) hw (hu k)).len 0
  have key : ∀ (n m : Nat), m ≤ k → k < m + n →
      ZipRest.lenDiffers c (PowT.mk (fun k => simdIter (cols k) (D k)) n m)
        ((cols 0).length / w) = ok true := by
    intro n
    induction n with
    | zero => intro m h1 h2; omega
    | succ n ih =>
      intro m h1 h2
      have e : ZipRest.lenDiffers c (PowT.mk (fun k => simdIter (cols k) (D k)) (n + 1) m)
          ((cols 0).length / w) = (do
          let l ← SIMDIterable.len c (simdIter (cols m) (D m))
          (if (cols 0).length / w ≠ l then ok true
            else ZipRest.lenDiffers c (PowT.mk (fun k => simdIter (cols k) (D k)) n (m + 1))
              ((cols 0).length / w))) := rfl
      rw [e, hlen]
      simp only [ok_bind]
      by_cases h : m = k
      · subst h
        rw [if_pos (Ne.symm hne)]
      · rw [ih (m + 1) (by omega) (by omega)]
        simp
  simp only [zip, hlen, ok_bind]
  rw [key n 1 h1 (by omega)]
  rfl

example : zip release64 (simdIter (w := 2) [1#8, 2, 3] (Vector.replicate 2 0))
    (simdIter (w := 2) [1#8, 2, 3, 4] (Vector.replicate 2 0), ()) = panic := by decide +kernel

end Check

/-! ### C23 -/

section Safety
variable {α β : Type} [Packable α] {w w' : Nat}

/-- **C23 is false**, tails: if both collections are shorter than a vector and
the second one is longer, `zip` accepts them and `end` always writes to a lane
outside the second vector (debug builds panic). -/
theorem C23_tail_out_of_bounds (c : Cfg) (xs : List α) (ys : List β) (dx : Vector α w)
    (dy : Vector β w) (h0 : 0 < xs.length) (h1 : xs.length < ys.length) (h2 : ys.length < w)
    (hu : 2 * w < c.usize) :
    let z : Zip _ _ := ⟨simdIter xs dx, (simdIter ys dy, ())⟩
    zip c (simdIter xs dx) (simdIter ys dy, ()) = ok z ∧
    SIMDZippedIterator.next c z = ok (none, z) ∧
    SIMDZippedIterator.end_ c z = badAccess c := by
  intro z
  have hw : 0 < w := by omega
  refine ⟨?_, ?_, ?_⟩
  · rw [C22_zip_check c xs ys dx dy hw hw (by omega) (by omega), if_pos]
    rw [Nat.div_eq_of_lt (by omega), Nat.div_eq_of_lt (by omega)]
  · have hn := simdIter_next_none (represents_slice c xs) (d := dx) (p := 0) (by omega) (by omega)
    simp only [SIMDZippedIterator.next, Zip.next, z, simdIter, SIMDIterable.scalarPos, ok_bind, hn]
  · have he := simdIter_end_exact (represents_slice c xs) 0 dx (by omega)
    rw [if_neg (by omega), if_neg (by omega), if_neg (by omega)] at he
    have hrep : Represents c (simdIter ys dy) ys := represents_iter (represents_slice c ys) 0 dy
    simp only [SIMDZippedIterator.end_, Zip.end_, z, simdIter, SIMDIterable.scalarPos, ok_bind, he,
      ZipRest.endAll]
    have : endUnchecked c (simdIter ys dy) 0 (w - (xs.length - 0)) = badAccess c := by
      simp only [endUnchecked, hrep.scalarLen, ok_bind, debugAssert]
      rw [show decide (0 < ys.length) = true by simp; omega]
      simp only [endVec, show ¬ w < ys.length by omega, if_false]
      rw [elementLoop_bad hrep _ _ 0 _ (by omega) (by omega) (by omega) (by omega)]
      cases hd : c.debug
      · simp [badAccess, hd]
      · rw [usub_ok (by omega)]
        simp only [ok_bind]
        rw [usub_ok (by omega)]
        simp only [ok_bind]
        rw [show decide (w - (xs.length - 0) = w - (ys.length - 0)) = false by simp; omega]
        simp [assert, badAccess, hd]
    simp only [simdIter] at this
    rw [this]
    unfold badAccess
    split <;> rfl

/-- **C23 is false**, widths: for collections of `m` vectors each with
`w' < w`, `zip` accepts them and the last `next` always reads outside the second
collection. Debug builds panic, and so does the slicing `&data[offset..]` if the
offset itself is past the end. -/
theorem C23_width_out_of_bounds (c : Cfg) (m : Nat) (xs : List α) (ys : List β) (dx : Vector α w)
    (dy : Vector β w') (hm : 1 < m) (hx : xs.length = m * w) (hy : ys.length = m * w')
    (h0 : 0 < w') (hlt : w' < w) (hu : m * w + w < c.usize) :
    zip c (simdIter xs dx) (simdIter ys dy, ()) = ok ⟨simdIter xs dx, (simdIter ys dy, ())⟩ ∧
    SIMDZippedIterator.next c (⟨⟨(m - 1) * w, ⟨xs⟩, dx⟩, (simdIter ys dy, ())⟩ :
        Zip (SIMDIter (Slice α w) α w) (SIMDIter (Slice β w') β w' × Unit)) =
      if c.debug ∨ m * w' < (m - 1) * w then panic else ub := by
  have h1 : m * w' ≤ m * w := Nat.mul_le_mul_left m (by omega)
  have h2 : (m - 1) * w + w = m * w := by
    obtain ⟨k, rfl⟩ : ∃ k, m = k + 1 := ⟨m - 1, by omega⟩
    simp [Nat.succ_mul]
  have h3 : (m - 1) * w' + w' = m * w' := by
    obtain ⟨k, rfl⟩ : ∃ k, m = k + 1 := ⟨m - 1, by omega⟩
    simp [Nat.succ_mul]
  have h4 : (m - 1) * w' < (m - 1) * w := Nat.mul_lt_mul_of_pos_left hlt (by omega)
  constructor
  · rw [C22_zip_check c xs ys dx dy (by omega) h0 (by omega) (by omega), if_pos]
    rw [hx, hy, Nat.mul_div_cancel _ (by omega), Nat.mul_div_cancel _ h0]
  · have hn := simdIter_next_some (represents_slice c xs) (d := dx) (p := (m - 1) * w) (by omega)
      (by omega)
    simp only [SIMDZippedIterator.next, Zip.next, SIMDIterable.scalarPos, ok_bind, hn,
      ZipRest.nextAll]
    have : nextUnchecked c (simdIter ys dy) ((m - 1) * w) =
        if c.debug ∨ m * w' < (m - 1) * w then panic else ub := by
      simp only [nextUnchecked, simdIter, SIMDArray.loadUnchecked]
      cases hd : c.debug
      · simp only [Packed.loadUnchecked, sliceFrom, hd, Bool.false_eq_true, if_false, hy, false_or]
        by_cases hlt2 : m * w' < (m - 1) * w
        · rw [if_neg (by omega), if_pos hlt2]; rfl
        · rw [if_pos (by omega), if_neg hlt2]
          simp only [ok_bind, Packed.fromSliceUnchecked]
          rw [dif_neg (by simp; omega)]
      · simp only [if_true, true_or]
        rw [uadd_ok (by omega)]
        simp only [ok_bind, SIMDSized.scalarLen]
        rw [show decide ((m - 1) * w + w' ≤ ys.length) = false by simp; omega]
        simp [assert]
    rw [this]
    split <;> rfl

/-- Instances of both failures. -/
theorem C23_false :
    (do
      let z ← zip release64 (simdIter (w := 4) [1#8, 2] (Vector.replicate 4 0))
        (simdIter (w := 4) [1#8, 2, 3] (Vector.replicate 4 0), ())
      let _ ← SIMDZippedIterator.end_ release64 z
      ok ()) = ub ∧
    (do
      let z ← zip release64 (simdIter (w := 4) [1#8, 2, 3, 4, 5, 6, 7, 8] (Vector.replicate 4 0))
        (simdIter (w := 2) [1#16, 2, 3, 4] (Vector.replicate 2 0), ())
      let (_, z) ← SIMDZippedIterator.next release64 z
      let _ ← SIMDZippedIterator.next release64 z
      ok ()) = ub := by
  constructor <;> decide +kernel

/-- **C23**, the part which holds: for slices of the same length and lane width,
whatever the positions of the iterators, `next` is safe, and `end` is safe where
it is for the first iterator alone (C13). Missing: other lengths and widths. -/
theorem C23_zip_safe_partial (c : Cfg) (xs : List α) (ys : List β) (dx : Vector α w)
    (dy : Vector β w) (p q : Nat) (h : xs.length = ys.length) (hw : 0 < w)
    (hu : xs.length + w < c.usize) :
    let z : Zip (SIMDIter (Slice α w) α w) (SIMDIter (Slice β w) β w × Unit) :=
      ⟨⟨p, ⟨xs⟩, dx⟩, (⟨q, ⟨ys⟩, dy⟩, ())⟩
    (p ≤ xs.length → ∃ r, SIMDZippedIterator.next c z = ok r) ∧
    (p ≤ xs.length → xs.length - p ≤ w → (p = 0 ∨ p = xs.length ∨ w < xs.length) →
      ∃ r, SIMDZippedIterator.end_ c z = ok r) := by
  intro z
  obtain ⟨h1, h2, h3⟩ := rows2_spec c xs ys dx dy q h hw hu
  constructor
  · intro hp
    obtain ⟨h4, h5⟩ := zip_next h2 h3 (by omega) p
    by_cases hm : p + w ≤ xs.length
    · obtain ⟨_, h6⟩ := h4 hm
      exact ⟨_, h6⟩
    · exact ⟨_, h5 hm (by omega)⟩
  · intro hp hr hs
    by_cases hlt : p < xs.length
    · by_cases hm : p + w ≤ xs.length
      · have hpw : xs.length - p = w := by omega
        have h4 := simdIter_end_exact (represents_slice c xs) p dx hu
        rw [if_neg (by omega), if_neg (by omega), if_neg (by omega)] at h4
        have h5 := LawfulRest.end_ok p (by simp [h1]; omega) (by simp [h1]; omega)
          (by simp [h1]; omega) (by omega) h3
        simp only [List.length_map, h1] at h5
        simp only [z, SIMDZippedIterator.end_, Zip.end_, SIMDIterable.scalarPos, ok_bind, h4, h5]
        exact ⟨_, rfl⟩
      · have := zip_end h2 h3 (by omega) p (by omega) hm (by omega)
        rw [if_pos (by omega)] at this
        exact ⟨_, this⟩
    · have := zip_end h2 h3 (by omega) p (by omega) (by omega) (by omega)
      rw [if_neg (by omega)] at this
      exact ⟨_, this⟩

example : (do
    let z ← zip debug64 (simdIter (w := 2) [1#8, 2, 3] (Vector.replicate 2 0))
      (simdIter (w := 2) [4#16, 5, 6] (Vector.replicate 2 0), ())
    let (r, _) ← SIMDZippedIterator.next debug64 z
    ok r) = ok (some (#v[1, 2], #v[4, 5], ())) := by decide +kernel

end Safety

/-! ### C33, C34, C56 -/

section Len
variable {α β : Type} [Packable α] {w : Nat}

/-- **C33 is false for zips**: `scalar_len` is the number of full vectors. -/
theorem C33_zip_scalar_len_wrong (c : Cfg) (xs : List α) (ys : List β) (dx : Vector α w)
    (dy : Vector β w) (hw : 1 < w) (hu : xs.length + w < c.usize) (h0 : 0 < xs.length) :
    let z : Zip _ _ := ⟨simdIter xs dx, (simdIter ys dy, ())⟩
    SIMDZippedIterator.scalarLen c z = ok (xs.length / w) ∧ xs.length / w ≠ xs.length := by
  intro z
  refine ⟨(simdIter_driver (represents_slice c xs) dx (by omega) hu).len 0, ?_⟩
  have := Nat.div_lt_self h0 hw
  omega

/-- **C34 is false for zips**: after `finalize` of a fresh zip of at least two
vectors, `next` still delivers a window. -/
theorem C34_zip_finalize_wrong (c : Cfg) (xs : List α) (ys : List β) (dx : Vector α w)
    (dy : Vector β w) (h : xs.length = ys.length) (hw : 1 < w) (hu : xs.length + w < c.usize)
    (h2 : 2 * w ≤ xs.length) :
    ∃ z v z', zfinalize c (⟨simdIter xs dx, (simdIter ys dy, ())⟩ : Zip _ _) = ok z ∧
      SIMDZippedIterator.next c z = ok (some v, z') := by
  have hl := (simdIter_driver (represents_slice c xs) dx (by omega) hu).len 0
  have hle := Nat.div_le_self xs.length w
  have hle2 : xs.length / w * 2 ≤ xs.length := by
    have h3 := Nat.div_mul_le_self xs.length w
    have h4 : xs.length / w * 2 ≤ xs.length / w * w := Nat.mul_le_mul_left _ hw
    omega
  have hf : zfinalize c (⟨simdIter xs dx, (simdIter ys dy, ())⟩ : Zip _ _) =
      ok ⟨⟨xs.length / w, ⟨xs⟩, dx⟩, (simdIter ys dy, ())⟩ := by
    simp only [simdIter] at hl ⊢
    simp only [zfinalize, SIMDZippedIterator.scalarLen, SIMDZippedIterator.scalarPos,
      SIMDIterable.scalarPos, hl, ok_bind]
    rw [usub_ok (by omega)]
    simp only [ok_bind, SIMDZippedIterator.advance, SIMDIterable.advance,
      SIMDIter.advance]
    rw [uadd_ok (by omega)]
    simp
  obtain ⟨h1, h4, h5⟩ := rows2_spec c xs ys dx dy 0 h (by omega) hu
  obtain ⟨_, h6⟩ := (zip_next h4 h5 (by omega) (xs.length / w)).1 (by omega)
  exact ⟨_, _, _, hf, h6⟩

/-- **C56 is false**: a zip never looks at the positions of its further
iterators; it delivers the elements at the first iterator's position. -/
theorem C56_zip_ignores_positions (c : Cfg) (xs : List α) (ys : List β) (dx : Vector α w)
    (dy : Vector β w) (p q : Nat) (h : xs.length = ys.length) (hw : 0 < w)
    (hu : xs.length + w < c.usize) (hp : p + w ≤ xs.length) :
    let z : Zip (SIMDIter (Slice α w) α w) (SIMDIter (Slice β w) β w × Unit) :=
      ⟨⟨p, ⟨xs⟩, dx⟩, (⟨q, ⟨ys⟩, dy⟩, ())⟩
    ∃ z', SIMDZippedIterator.next c z =
      ok (some (windowAt xs p w hp, windowAt ys p w (by omega), ()), z') := by
  intro z
  have hn := simdIter_next_some (represents_slice c xs) (d := dx) hp (by omega)
  have h2 := nextUnchecked_ok (represents_iter (represents_slice c ys) q dy) p
    (show p + w ≤ ys.length by omega) (by omega)
  refine ⟨⟨⟨p + w, ⟨xs⟩, dx⟩, (⟨q, ⟨ys⟩, dy⟩, ())⟩, ?_⟩
  simp only [z, SIMDZippedIterator.next, Zip.next, SIMDIterable.scalarPos, ok_bind, hn,
    ZipRest.nextAll, h2]

/-- Instance: the second iterator has already delivered its first two elements,
yet the zip delivers them again. -/
theorem C56_false : ∃ (a b : SIMDIter (Slice (BitVec 8) 2) (BitVec 8) 2),
    next debug64 (simdIter [5, 6, 7, 8] (Vector.replicate 2 0)) = ok (some #v[5, 6], b) ∧
    a = simdIter [1, 2, 3, 4] (Vector.replicate 2 0) ∧
    (do
      let z ← zip debug64 a (b, ())
      let (v, _) ← SIMDZippedIterator.next debug64 z
      ok v) = ok (some (#v[1, 2], #v[5, 6], ())) :=
  ⟨simdIter [1, 2, 3, 4] (Vector.replicate 2 0), ⟨2, ⟨[5, 6, 7, 8]⟩, Vector.replicate 2 0⟩,
    by decide +kernel, rfl, by decide +kernel⟩

end Len
end Faster
