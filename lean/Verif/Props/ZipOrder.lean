import Verif.Props.Zip
import Verif.Props.PassAt
/-
C150: the order in which collections are zipped. A zip of the same columns in another order calls
the closure with the same tuples in the other order, as long as all collections have the same
length. With different lengths, which `zip` accepts, the first collection decides.
-/
namespace Faster
open Res SIMDSized SIMDIterable SIMDIterator

section
variable {I I' R R' α α' γ γ' δ δ' : Type} {w : Nat} [SIMDSized I] [SIMDIterator I α w]
  [SIMDSized I'] [SIMDIterator I' α' w] [Packable α] [Packable α'] [ZipRest R γ] [ZipRest R' γ']
  [LawfulRest R γ δ w] [LawfulRest R' γ' δ' w] {c : Cfg} {S : Nat → I} {S' : Nat → I'} {r : R}
  {r' : R'} {rows : List (α × δ)} {dv : Vector (α × δ) w} {more more' : Nat → Prop}

theorem callAll_map_congr {σ A B C D : Type} (g : A → B) (g' : A → C) (f : FnMut σ B D)
    (f' : FnMut σ C D) (hf : ∀ st a, f' st (g' a) = f st (g a)) (l : List A) (st : σ) :
    callAll f' st (l.map g') = callAll f st (l.map g) := by
  induction l generalizing st with
  | nil => rfl
  | cons a l ih => simp only [List.map_cons, callAll, hf, ih]

theorem foldlM_map_congr {σ A B C : Type} (g : A → B) (g' : A → C) (f : σ → B → Res σ)
    (f' : σ → C → Res σ) (hf : ∀ st a, f' st (g' a) = f st (g a)) (l : List A) (st : σ) :
    (l.map g').foldlM f' st = (l.map g).foldlM f st := by
  induction l generalizing st with
  | nil => rfl
  | cons a l ih => simp only [List.map_cons, List.foldlM_cons, hf, ih]

/-- **C150**, any rearrangement `π` of the columns, `simd_reduce`: a closure which sees through the
rearrangement computes the same result. -/
theorem C150_reduce_partial (π : α × δ → α' × δ') {A σ : Type}
    (hd : Driver c S (rows.map Prod.fst) (dv.map Prod.fst) more)
    (hr : LawfulRest.Rep c r (rows.map Prod.snd) (dv.map Prod.snd))
    (hd' : Driver c S' ((rows.map π).map Prod.fst) ((dv.map π).map Prod.fst) more')
    (hr' : LawfulRest.Rep c r' ((rows.map π).map Prod.snd) ((dv.map π).map Prod.snd))
    (hw : 0 < w) (hu : rows.length + w < c.usize) (fuel : Nat) (start : A) (st : σ)
    (f : σ → A → Vector α w × γ → Res (A × σ)) (f' : σ → A → Vector α' w × γ' → Res (A × σ))
    (hf : ∀ st a (v : Vector (α × δ) w), f' st a (packRow R' (v.map π)) = f st a (packRow R v))
    (hfuel : rows.length / w < fuel) :
    (do
      let z ← zip c (S' 0) r'
      let (_, acc) ← zsimdReduce c fuel z start st f'
      ok acc) = (do
      let z ← zip c (S 0) r
      let (_, acc) ← zsimdReduce c fuel z start st f
      ok acc) := by
  have h1 := C24_zip_reduce_general hd hw hr hu fuel start st f hfuel
  have h2 := C24_zip_reduce_general hd' hw hr' (by simpa using hu) fuel start st f'
    (by simpa using hfuel)
  rw [← bind_assoc, ← bind_assoc, h1, h2, calls_map hw, List.map_map]
  simp only [bind_assoc, ok_bind]
  rw [foldlM_map_congr (packRow R) (packRow R' ∘ Vector.map π)
    (fun (q : A × σ) v => f q.2 q.1 v) (fun (q : A × σ) v => f' q.2 q.1 v)
    (fun q v => hf q.2 q.1 v)]

/-- **C150**, any rearrangement of the columns, `simd_do_each`. -/
theorem C150_do_each_partial (π : α × δ → α' × δ') {σ : Type}
    (hd : Driver c S (rows.map Prod.fst) (dv.map Prod.fst) more)
    (hr : LawfulRest.Rep c r (rows.map Prod.snd) (dv.map Prod.snd))
    (hd' : Driver c S' ((rows.map π).map Prod.fst) ((dv.map π).map Prod.fst) more')
    (hr' : LawfulRest.Rep c r' ((rows.map π).map Prod.snd) ((dv.map π).map Prod.snd))
    (hw : 0 < w) (hu : rows.length + w < c.usize) (fuel : Nat) (st : σ)
    (f : FnMut σ (Vector α w × γ) Unit) (f' : FnMut σ (Vector α' w × γ') Unit)
    (hf : ∀ st (v : Vector (α × δ) w), f' st (packRow R' (v.map π)) = f st (packRow R v))
    (hfuel : rows.length / w < fuel) :
    (do
      let z ← zip c (S' 0) r'
      let (_, st') ← zsimdDoEach c fuel z st f'
      ok st') = (do
      let z ← zip c (S 0) r
      let (_, st') ← zsimdDoEach c fuel z st f
      ok st') := by
  have h1 := C24_zip_do_each_general hd hw hr hu fuel st f hfuel
  have h2 := C24_zip_do_each_general hd' hw hr' (by simpa using hu) fuel st f'
    (by simpa using hfuel)
  rw [← bind_assoc, ← bind_assoc, h1, h2, calls_map hw, List.map_map]
  simp only [bind_assoc, ok_bind]
  rw [callAll_map_congr (packRow R) (packRow R' ∘ Vector.map π) f f' hf]

/-- **C150**, any rearrangement of the columns, `simd_map` and `scalar_collect`: the vectors of the
result have the size of the vectors of both first collections. -/
theorem C150_collect_partial (π : α × δ → α' × δ') {σ β : Type} [Packable β] {w' : Nat}
    (hd : Driver c S (rows.map Prod.fst) (dv.map Prod.fst) more)
    (hr : LawfulRest.Rep c r (rows.map Prod.snd) (dv.map Prod.snd))
    (hd' : Driver c S' ((rows.map π).map Prod.fst) ((dv.map π).map Prod.fst) more')
    (hr' : LawfulRest.Rep c r' ((rows.map π).map Prod.snd) ((dv.map π).map Prod.snd))
    (hw : 0 < w) (hw' : 0 < w') (hu : rows.length + w < c.usize) (fuel : Nat) (st : σ)
    (f : FnMut σ (Vector α w × γ) (Vector β w')) (f' : FnMut σ (Vector α' w × γ') (Vector β w'))
    (hf : ∀ st (v : Vector (α × δ) w), f' st (packRow R' (v.map π)) = f st (packRow R v))
    (hs : 0 < Packable.size β) (hsize : w * Packable.size α = w' * Packable.size β)
    (hsize' : Packable.size α' = Packable.size α)
    (hlen' : (rows.length / w + 1) * w' < c.usize)
    (hvec : w * Packable.size α < c.usize) (hfuel : rows.length / w < fuel) :
    (do
      let z ← zip c (S' 0) r'
      let (_, out) ← scalarCollect c fuel (zsimdMap z st f')
      ok out) = (do
      let z ← zip c (S 0) r
      let (_, out) ← scalarCollect c fuel (zsimdMap z st f)
      ok out) := by
  have h1 := zip_collect_any hd hw hr hu fuel st f hw' hs hsize hlen' hvec hfuel
  have h2 := zip_collect_any hd' hw hr' (by simpa using hu) fuel st f' hw' hs (by rw [hsize', hsize])
    (by simpa using hlen') (by rwa [hsize']) (by simpa using hfuel)
  rw [← bind_assoc, ← bind_assoc, h1, h2, calls_map hw, List.map_map,
    callAll_map_congr (packRow R) (packRow R' ∘ Vector.map π) f f' hf, List.length_map, hsize']
  simp only [bind_assoc, ok_bind]

end

section
variable {R α β γ δ : Type} {w : Nat} [Packable α] [Packable β] [ZipRest R γ] [LawfulRest R γ δ w]
  {c : Cfg} {r : R}

/-- The rows of two columns and of the columns which follow. -/
def rowsOf (xs : List α) (ys : List β) (zs : List δ) : List (α × β × δ) :=
  List.zipWith (fun a q => (a, q)) xs (List.zipWith (fun b z => (b, z)) ys zs)

/-- The default vectors of the same columns. -/
def vrowsOf (dx : Vector α w) (dy : Vector β w) (dz : Vector δ w) : Vector (α × β × δ) w :=
  Vector.zipWith (fun a q => (a, q)) dx (Vector.zipWith (fun b z => (b, z)) dy dz)

omit [Packable α] [Packable β] in
theorem rowsOf_spec (xs : List α) (ys : List β) (zs : List δ) (dx : Vector α w) (dy : Vector β w)
    (dz : Vector δ w) (hr : LawfulRest.Rep c r zs dz) (h : xs.length = ys.length)
    (hz : xs.length = zs.length) (hw : 0 < w) (hu : xs.length + w < c.usize) :
    (rowsOf xs ys zs).length = xs.length ∧
    Driver c (fun p => (⟨p, ⟨xs⟩, dx⟩ : SIMDIter (Slice α w) α w))
      ((rowsOf xs ys zs).map Prod.fst) ((vrowsOf dx dy dz).map Prod.fst)
      (fun p => p + w ≤ xs.length) ∧
    LawfulRest.Rep c ((simdIter ys dy, r) : SIMDIter (Slice β w) β w × R)
      ((rowsOf xs ys zs).map Prod.snd) ((vrowsOf dx dy dz).map Prod.snd) := by
  have e1 : (rowsOf xs ys zs).map Prod.fst = xs := by
    apply List.ext_getElem <;> (simp [rowsOf]; try omega)
  have e2 : ((rowsOf xs ys zs).map Prod.snd).map Prod.fst = ys := by
    apply List.ext_getElem <;> (simp [rowsOf]; try omega)
  have e3 : ((rowsOf xs ys zs).map Prod.snd).map Prod.snd = zs := by
    apply List.ext_getElem <;> (simp [rowsOf]; try omega)
  have e4 : (vrowsOf dx dy dz).map Prod.fst = dx := by ext i hi; simp [vrowsOf]
  have e5 : ((vrowsOf dx dy dz).map Prod.snd).map Prod.fst = dy := by ext i hi; simp [vrowsOf]
  have e6 : ((vrowsOf dx dy dz).map Prod.snd).map Prod.snd = dz := by ext i hi; simp [vrowsOf]
  refine ⟨by simp [rowsOf]; omega, ?_, ?_, ?_⟩
  · rw [e1, e4]
    exact simdIter_driver (represents_slice c xs) dx hw hu
  · rw [e2, e5]
    exact repIter_simdIter c ys 0 dy hw (by omega)
  · rw [e3, e6]
    exact hr

/-- The first two components of a row, exchanged. -/
def exchange {A B C : Type} (q : A × B × C) : B × A × C := (q.2.1, q.1, q.2.2)

omit [Packable α] [Packable β] in
theorem rowsOf_exchange (xs : List α) (ys : List β) (zs : List δ) (h : xs.length = ys.length) :
    (rowsOf xs ys zs).map exchange = rowsOf ys xs zs := by
  apply List.ext_getElem <;> (simp [rowsOf, exchange]; try omega)

omit [Packable α] [Packable β] in
theorem vrowsOf_exchange (dx : Vector α w) (dy : Vector β w) (dz : Vector δ w) :
    (vrowsOf dx dy dz).map exchange = vrowsOf dy dx dz := by
  ext i hi <;> simp [vrowsOf, exchange]

omit [Packable α] [Packable β] in
theorem packRow_exchange (v : Vector (α × β × δ) w) :
    packRow (SIMDIter (Slice α w) α w × R) (v.map exchange) =
      exchange (packRow (SIMDIter (Slice β w) β w × R) v) := by
  simp only [packRow, exchange, LawfulRest.pack, Vector.map_map]
  rfl

/-- **C150**, the first two of any number of zipped collections exchanged, `simd_reduce`: the same
closure, which gets the two vectors in the other order, computes the same result. -/
theorem C150_swap_reduce_partial {A σ : Type} (xs : List α) (ys : List β) (zs : List δ) (dx : Vector α w)
    (dy : Vector β w) (dz : Vector δ w) (hr : LawfulRest.Rep c r zs dz) (h : xs.length = ys.length)
    (hz : xs.length = zs.length) (hw : 0 < w) (hu : xs.length + w < c.usize) (fuel : Nat)
    (start : A) (st : σ) (f : σ → A → Vector α w × Vector β w × γ → Res (A × σ))
    (hfuel : xs.length / w < fuel) :
    (do
      let z ← zip c (simdIter ys dy) (simdIter xs dx, r)
      let (_, acc) ← zsimdReduce c fuel z start st fun st a v => f st a (exchange v)
      ok acc) = (do
      let z ← zip c (simdIter xs dx) (simdIter ys dy, r)
      let (_, acc) ← zsimdReduce c fuel z start st f
      ok acc) := by
  obtain ⟨h1, h2, h3⟩ := rowsOf_spec xs ys zs dx dy dz hr h hz hw hu
  obtain ⟨-, h5, h6⟩ := rowsOf_spec ys xs zs dy dx dz hr h.symm (by omega) hw (by omega)
  rw [← rowsOf_exchange xs ys zs h, ← vrowsOf_exchange] at h5 h6
  exact C150_reduce_partial exchange h2 h3 h5 h6 hw (by omega) fuel start st f _
    (by intro st a v; rw [packRow_exchange]; rfl) (by rwa [h1])

/-- **C150**, the first two of any number of zipped collections exchanged, `simd_do_each`. -/
theorem C150_swap_do_each_partial {σ : Type} (xs : List α) (ys : List β) (zs : List δ) (dx : Vector α w)
    (dy : Vector β w) (dz : Vector δ w) (hr : LawfulRest.Rep c r zs dz) (h : xs.length = ys.length)
    (hz : xs.length = zs.length) (hw : 0 < w) (hu : xs.length + w < c.usize) (fuel : Nat)
    (st : σ) (f : FnMut σ (Vector α w × Vector β w × γ) Unit)
    (hfuel : xs.length / w < fuel) :
    (do
      let z ← zip c (simdIter ys dy) (simdIter xs dx, r)
      let (_, st') ← zsimdDoEach c fuel z st fun st v => f st (exchange v)
      ok st') = (do
      let z ← zip c (simdIter xs dx) (simdIter ys dy, r)
      let (_, st') ← zsimdDoEach c fuel z st f
      ok st') := by
  obtain ⟨h1, h2, h3⟩ := rowsOf_spec xs ys zs dx dy dz hr h hz hw hu
  obtain ⟨-, h5, h6⟩ := rowsOf_spec ys xs zs dy dx dz hr h.symm (by omega) hw (by omega)
  rw [← rowsOf_exchange xs ys zs h, ← vrowsOf_exchange] at h5 h6
  exact C150_do_each_partial exchange h2 h3 h5 h6 hw (by omega) fuel st f _
    (by intro st v; rw [packRow_exchange]; rfl) (by rwa [h1])

/-- **C150**, the first two of any number of zipped collections exchanged, `simd_map` and
`scalar_collect`. -/
theorem C150_swap_collect_partial {σ ε : Type} [Packable ε] {w' : Nat} (xs : List α) (ys : List β)
    (zs : List δ) (dx : Vector α w) (dy : Vector β w) (dz : Vector δ w)
    (hr : LawfulRest.Rep c r zs dz) (h : xs.length = ys.length) (hz : xs.length = zs.length)
    (hw : 0 < w) (hw' : 0 < w') (hu : xs.length + w < c.usize) (fuel : Nat) (st : σ)
    (f : FnMut σ (Vector α w × Vector β w × γ) (Vector ε w'))
    (hs : 0 < Packable.size ε) (hsize : w * Packable.size α = w' * Packable.size ε)
    (hsize' : Packable.size β = Packable.size α) (hlen' : (xs.length / w + 1) * w' < c.usize)
    (hvec : w * Packable.size α < c.usize) (hfuel : xs.length / w < fuel) :
    (do
      let z ← zip c (simdIter ys dy) (simdIter xs dx, r)
      let (_, out) ← scalarCollect c fuel (zsimdMap z st fun st v => f st (exchange v))
      ok out) = (do
      let z ← zip c (simdIter xs dx) (simdIter ys dy, r)
      let (_, out) ← scalarCollect c fuel (zsimdMap z st f)
      ok out) := by
  obtain ⟨h1, h2, h3⟩ := rowsOf_spec xs ys zs dx dy dz hr h hz hw hu
  obtain ⟨-, h5, h6⟩ := rowsOf_spec ys xs zs dy dx dz hr h.symm (by omega) hw (by omega)
  rw [← rowsOf_exchange xs ys zs h, ← vrowsOf_exchange] at h5 h6
  exact C150_collect_partial exchange h2 h3 h5 h6 hw hw' (by omega) fuel st f _
    (by intro st v; rw [packRow_exchange]; rfl) hs hsize hsize' (by rwa [h1]) hvec (by rwa [h1])

end

section
variable {T U R α β γ δ ε : Type} {w : Nat} [SIMDSized T] [SIMDIterable T α w] [SIMDArray T α w]
  [SIMDSized U] [SIMDIterable U β w] [SIMDArray U β w] [ZipRest R γ] [LawfulRest R γ δ w] {c : Cfg}

/-- **C150**, two neighbours among the collections behind the first one exchanged: the columns are
the exchanged ones, so `C150_reduce_partial`, `C150_do_each_partial` and `C150_collect_partial` apply to them. -/
theorem C150_followers (t : T) (u : U) (r : R) (rows : List (α × β × δ)) (dv : Vector (α × β × δ) w)
    (h : LawfulRest.Rep c ((t, u, r) : T × U × R) rows dv) :
    LawfulRest.Rep c ((u, t, r) : U × T × R) (rows.map exchange) (dv.map exchange) := by
  obtain ⟨h1, h2, h3⟩ := h
  refine ⟨?_, ?_, ?_⟩
  · have e1 : (rows.map exchange).map Prod.fst = (rows.map Prod.snd).map Prod.fst := by
      simp [exchange]
    have e2 : (dv.map exchange).map Prod.fst = (dv.map Prod.snd).map Prod.fst := by
      ext i hi; simp [exchange]
    rw [e1, e2]; exact h2
  · have e1 : ((rows.map exchange).map Prod.snd).map Prod.fst = rows.map Prod.fst := by
      simp [exchange]
    have e2 : ((dv.map exchange).map Prod.snd).map Prod.fst = dv.map Prod.fst := by
      ext i hi; simp [exchange]
    rw [e1, e2]; exact h1
  · have e1 : ((rows.map exchange).map Prod.snd).map Prod.snd =
        (rows.map Prod.snd).map Prod.snd := by simp [exchange]
    have e2 : ((dv.map exchange).map Prod.snd).map Prod.snd = (dv.map Prod.snd).map Prod.snd := by
      ext i hi; simp [exchange]
    rw [e1, e2]; exact h3

/-- The same below any number of collections which stay where they are. -/
theorem C150_deeper {V R' γ' δ' : Type} [SIMDSized V] [SIMDIterable V ε w] [SIMDArray V ε w]
    [ZipRest R' γ'] [LawfulRest R' γ' δ' w] (v : V) (r : R) (r' : R') (π : δ → δ')
    (rows : List (ε × δ)) (dv : Vector (ε × δ) w)
    (h : LawfulRest.Rep c ((v, r) : V × R) rows dv)
    (hπ : ∀ (rows : List δ) (dv : Vector δ w), LawfulRest.Rep c r rows dv →
      LawfulRest.Rep c r' (rows.map π) (dv.map π)) :
    LawfulRest.Rep c ((v, r') : V × R') (rows.map fun q => (q.1, π q.2))
      (dv.map fun q => (q.1, π q.2)) := by
  obtain ⟨h1, h2⟩ := h
  refine ⟨?_, ?_⟩
  · have e1 : (rows.map fun q => (q.1, π q.2)).map Prod.fst = rows.map Prod.fst := by simp
    have e2 : (dv.map fun q => (q.1, π q.2)).map Prod.fst = dv.map Prod.fst := by
      ext i hi; simp
    rw [e1, e2]; exact h1
  · have e1 : (rows.map fun q => (q.1, π q.2)).map Prod.snd = (rows.map Prod.snd).map π := by simp
    have e2 : (dv.map fun q => (q.1, π q.2)).map Prod.snd = (dv.map Prod.snd).map π := by
      ext i hi; simp
    rw [e1, e2]; exact hπ _ _ h2

end

/-- **C150**, the check of `zip` does not depend on the order: two slices of any lengths and widths
are accepted in one order exactly if they are accepted in the other, and panic otherwise. -/
theorem C150_check {α β : Type} {w w' : Nat} (c : Cfg) (xs : List α) (ys : List β)
    (dx : Vector α w) (dy : Vector β w') (hw : 0 < w) (hw' : 0 < w')
    (hx : xs.length + w < c.usize) (hy : ys.length + w' < c.usize) :
    (zip c (simdIter xs dx) (simdIter ys dy, ()) = panic ↔
      zip c (simdIter ys dy) (simdIter xs dx, ()) = panic) ∧
    (zip c (simdIter xs dx) (simdIter ys dy, ()) = ok ⟨simdIter xs dx, (simdIter ys dy, ())⟩ ↔
      zip c (simdIter ys dy) (simdIter xs dx, ()) = ok ⟨simdIter ys dy, (simdIter xs dx, ())⟩) := by
  rw [C22_zip_check c xs ys dx dy hw hw' hx hy, C22_zip_check c ys xs dy dx hw' hw hy hx]
  by_cases h : xs.length / w = ys.length / w'
  · rw [if_pos h, if_pos h.symm]; simp
  · rw [if_neg h, if_neg (fun e => h e.symm)]; simp

/-- The pairs of lanes which a reduction over two slices of bytes sees, in the order of the call. -/
def seenPairs (c : Cfg) (xs ys : List (BitVec 8)) : Res (List (List (BitVec 8) × List (BitVec 8))) := (do
  let z ← zip c (simdIter (w := 4) xs (Vector.replicate 4 0))
    (simdIter (w := 4) ys (Vector.replicate 4 0), ())
  let (_, out, _) ← zsimdReduce c 9 z [] () fun st out
      (v : Vector (BitVec 8) 4 × Vector (BitVec 8) 4 × Unit) =>
    ok (out ++ [(v.1.toList, v.2.1.toList)], st)
  ok out)

/-- **C150 is false** for the slices of different lengths which `zip` accepts: without overflow
checks the fifth element of one slice meets the sixth of the other, or the two last elements of
the longer one meet the fourth and fifth; and of slices of four and five elements one order
succeeds and the other panics. -/
theorem C150_false :
    seenPairs release64 [1, 2, 3, 4, 5] [11, 12, 13, 14, 15, 16] =
      ok [([1, 2, 3, 4], [11, 12, 13, 14]), ([0, 0, 0, 5], [0, 0, 0, 16])] ∧
    seenPairs release64 [11, 12, 13, 14, 15, 16] [1, 2, 3, 4, 5] =
      ok [([11, 12, 13, 14], [1, 2, 3, 4]), ([0, 0, 15, 16], [0, 0, 4, 5])] ∧
    seenPairs debug64 [11, 12, 13, 14] [1, 2, 3, 4, 5] = ok [([11, 12, 13, 14], [1, 2, 3, 4])] ∧
    seenPairs debug64 [1, 2, 3, 4, 5] [11, 12, 13, 14] = panic := by decide +kernel

/-- Two columns of five elements: exchanged they give the same pairs, and a closure which
does not exchange its arguments tells the orders apart. -/
example : seenPairs release64 [1, 2, 3, 4, 5] [11, 12, 13, 14, 15] =
      ok [([1, 2, 3, 4], [11, 12, 13, 14]), ([0, 0, 0, 5], [0, 0, 0, 15])] ∧
    seenPairs release64 [11, 12, 13, 14, 15] [1, 2, 3, 4, 5] =
      ok [([11, 12, 13, 14], [1, 2, 3, 4]), ([0, 0, 0, 15], [0, 0, 0, 5])] := by decide +kernel

/-- The hypotheses of `C150_swap_reduce_partial` hold for two slices of five elements. -/
example {A σ : Type} (fuel : Nat) (hf : 1 < fuel) (start : A) (st : σ)
    (f : σ → A → Vector (BitVec 8) 4 × Vector (BitVec 16) 4 × Unit → Res (A × σ)) :
    (do
      let z ← zip debug64 (simdIter [6#16, 7, 8, 9, 10] (Vector.replicate 4 0))
        (simdIter [1#8, 2, 3, 4, 5] (Vector.replicate 4 0), ())
      let (_, acc) ← zsimdReduce debug64 fuel z start st fun st a v => f st a (exchange v)
      ok acc) = (do
      let z ← zip debug64 (simdIter [1#8, 2, 3, 4, 5] (Vector.replicate 4 0))
        (simdIter [6#16, 7, 8, 9, 10] (Vector.replicate 4 0), ())
      let (_, acc) ← zsimdReduce debug64 fuel z start st f
      ok acc) :=
  C150_swap_reduce_partial (c := debug64) (r := ()) [1#8, 2, 3, 4, 5] [6#16, 7, 8, 9, 10]
    (List.replicate 5 ()) _ _ (Vector.replicate 4 ()) trivial rfl rfl (by decide) (by decide) fuel
    start st f hf

end Faster
