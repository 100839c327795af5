import Verif.Props.EndToEnd
import Verif.Props.ZipLanes
import Verif.Props.Merge
/-
C168: closures which treat the lanes of a vector differently.
-/
namespace Faster
open Res

variable {α β γ : Type} {w : Nat} {c : Cfg}

/-- The function `g i` on lane `i`. -/
def mapLane (g : Nat → α → β) (v : Vector α w) : Vector β w := Vector.ofFn fun i => g i v[i]

/-- Element `j` is shown in lane `laneOf w len j`. -/
theorem unpad_mapLane (g : Nat → α → β) (hw : 0 < w) (d : Vector α w) (data : List α) :
    unpad ((w - data.length % w) % w) ((calls w d data).map (mapLane g)) =
      data.mapIdx fun j x => g (laneOf w data.length j) x := by
  have hl := (pointwise_unpad (R := fun _ _ => True) (G := mapLane g) (fun _ _ _ => trivial)
    ((w - data.length % w) % w) (calls w d data)).1
  rw [unpad_calls hw] at hl
  apply List.ext_getElem?
  intro j
  rw [List.getElem?_mapIdx]
  by_cases hj : j < data.length
  · obtain ⟨h1, v, -, h2, h3⟩ := unpad_calls_map hw d data (mapLane g) j hj
    rw [h3, h2, List.getElem?_eq_getElem (by simpa using h1), List.getElem?_eq_getElem (by simpa using h1)]
    simp [mapLane]
  · rw [List.getElem?_eq_none (by omega), List.getElem?_eq_none (by omega)]
    simp

/-- **C168**, one collection: element `j` is treated as the lane is in which it is shown. -/
theorem C168_map [Packable α] [Packable β] {F : Vector α w → Res (Vector β w)} {g : Nat → α → β}
    (hF : ∀ v, F v = ok (mapLane g v)) (hw : 0 < w) (hs : 0 < Packable.size β)
    (hsize : Packable.size α = Packable.size β) (fuel : Nat) (data : List α) (d : Vector α w)
    (hlen : data.length + w < c.usize) (hvec : w * Packable.size α < c.usize) (hfuel : data.length / w < fuel) :
    (do let (_, out) ← scalarCollect c fuel (simdMap (simdIter data d) () (useOp F)); ok out) =
      ok ((data.mapIdx fun j x => g (laneOf w data.length j) x).map some) := by
  have hG : useOp F = pureFn (mapLane g) := by
    funext st v
    simp [useOp, pureFn, hF v]
  have hdm := Nat.div_mul_le_self data.length w
  rw [hG, ← unpad_mapLane g hw d data, C05_collect_any_closure c fuel data d () _ hw hw hs (by rw [hsize]) hlen
    (by rw [Nat.succ_mul]; omega) hvec hfuel, callAll_pure]
  simp only [ok_bind]
  rw [hsize, Nat.mul_div_cancel _ hs]

/-- **C168**, in place. -/
theorem C168_for_each [Packable α] {F : Vector α w → Res (Vector α w)} {g : Nat → α → α}
    (hF : ∀ v, F v = ok (mapLane g v)) (hw : 0 < w) (fuel : Nat) (data : List α) (d : Vector α w)
    (hlen : data.length + w < c.usize) (hfuel : data.length / w < fuel) :
    simdForEach c fuel () (useOp F) (simdIter data d) =
      (ok (), ⟨data.length, ⟨data.mapIdx fun j x => g (laneOf w data.length j) x⟩, d⟩) := by
  have hG : useOp F = pureFn (mapLane g) := by
    funext st v
    simp [useOp, pureFn, hF v]
  rw [hG, ← unpad_mapLane g hw d data]
  exact C10_for_each_any_closure c fuel data d () () _ _ hw hlen hfuel (callAll_pure _ _)

/-- **C168**, two zipped collections. -/
theorem C168_zip [Packable α] [Packable γ] {F : Vector α w → Vector β w → Res (Vector γ w)} {g : Nat → α → β → γ}
    (hF : ∀ u v, F u v = ok (Vector.ofFn fun i => g i u[i] v[i])) (hw : 0 < w) (hs : 0 < Packable.size γ)
    (hsize : Packable.size α = Packable.size γ) (fuel : Nat) (xs : List α) (ys : List β) (dx : Vector α w)
    (dy : Vector β w) (h : xs.length = ys.length) (hlen : xs.length + w < c.usize)
    (hvec : w * Packable.size α < c.usize) (hfuel : xs.length / w < fuel) :
    (do
      let z ← zip c (simdIter xs dx) (simdIter ys dy, ())
      let (_, out) ← scalarCollect c fuel (zsimdMap z () (useOp2 F))
      ok out) = ok (((List.zip xs ys).mapIdx fun j p => g (laneOf w xs.length j) p.1 p.2).map some) := by
  have hpure : useOp2 F = pureFn fun v => Vector.ofFn fun i => g i v.1[i] v.2.1[i] := by
    funext st v
    simp [useOp2, pureFn, hF]
  have hdm := Nat.div_mul_le_self xs.length w
  have hrow : (rows2 xs ys).length = xs.length := by simp [rows2, h]
  have key := unpad_mapLane (fun i (t : α × β × Unit) => g i t.1 t.2.1) hw
    (Vector.zipWith (fun a b => (a, b, ())) dx dy) (rows2 xs ys)
  have hcomp : (mapLane fun i (t : α × β × Unit) => g i t.1 t.2.1) =
      (fun v : Vector α w × Vector β w × Unit => Vector.ofFn fun i => g i v.1[i] v.2.1[i]) ∘
        packRow (SIMDIter (Slice β w) β w × Unit) := by
    funext v
    apply Vector.ext
    intro i hi
    simp only [mapLane, Function.comp, packRow, Vector.getElem_ofFn]
    have h2 : (LawfulRest.pack (SIMDIter (Slice β w) β w × Unit) (v.map Prod.snd)).1 =
        (v.map Prod.snd).map Prod.fst := rfl
    simp only [h2, Fin.getElem_fin, Vector.getElem_map]
  rw [hcomp, ← List.map_map, calls_two xs ys dx dy h hw, hrow] at key
  rw [hpure, C21_zip_two_any c xs ys dx dy fuel () _ h hw hlen hw hs (by rw [hsize])
    (by rw [Nat.succ_mul]; omega) hvec hfuel, callAll_pure]
  simp only [ok_bind]
  rw [hsize, Nat.mul_div_cancel _ (by omega), key]
  congr 2
  apply List.ext_getElem
  · simp [hrow, h]
  · intro j h1 h2
    simp [rows2]

/-! ### Even and odd lanes -/

/-- Lanes have the parity of the index, except after the full vectors of a slice of odd length. -/
theorem laneOf_parity (hw : 0 < w) (hw2 : w % 2 = 0) {len j : Nat} :
    laneOf w len j % 2 = if j < len / w * w ∨ len % 2 = 0 then j % 2 else (j + 1) % 2 := by
  have hm := Nat.mod_lt len hw
  have hdm := Nat.div_add_mod len w
  have h1 : w * (len / w) % 2 = 0 := by rw [Nat.mul_mod, hw2]; simp
  have h2 : len / w * w % 2 = 0 := by rw [Nat.mul_comm]; exact h1
  have h3 : j % w % 2 = j % 2 := Nat.mod_mod_of_dvd j (Nat.dvd_of_mod_eq_zero hw2)
  unfold laneOf
  by_cases h : j < len / w * w
  · rw [if_pos h, if_pos (.inl h), h3]
  · rw [if_neg h]
    by_cases he : len % 2 = 0
    · rw [if_pos (.inr he)]; omega
    · rw [if_neg (by simp [h, he])]; omega

/-- A version of `merge_interleaved`: even lanes of the first vector, odd lanes of the second. -/
def InterleavedOp (F : Vector α w → Vector α w → Res (Vector α w)) : Prop :=
  ∀ u v, F u v = ok (select (fun i => i % 2 = 0) u v)

/-- **C168**, `merge_interleaved` of two slices, exactly. -/
theorem C168_interleaved [Packable α] {F : Vector α w → Vector α w → Res (Vector α w)} (hF : InterleavedOp F)
    (hw : 0 < w) (hw2 : w % 2 = 0) (hs : 0 < Packable.size α) (fuel : Nat) (xs ys : List α) (dx dy : Vector α w)
    (h : xs.length = ys.length) (hlen : xs.length + w < c.usize) (hvec : w * Packable.size α < c.usize)
    (hfuel : xs.length / w < fuel) :
    (do
      let z ← zip c (simdIter xs dx) (simdIter ys dy, ())
      let (_, out) ← scalarCollect c fuel (zsimdMap z () (useOp2 F))
      ok out) = ok (((List.zip xs ys).mapIdx fun j p =>
        if (j < xs.length / w * w ∨ xs.length % 2 = 0 ↔ j % 2 = 0) then p.1 else p.2).map some) := by
  rw [C168_zip (c := c) (g := fun i x y => if i % 2 = 0 then x else y) (fun u v => by
    rw [hF]; congr 1; apply Vector.ext; intro i hi; simp [select]) hw hs rfl fuel xs ys dx dy h hlen hvec hfuel]
  congr 2
  apply List.ext_getElem
  · simp
  · intro j h1 h2
    simp only [List.getElem_mapIdx]
    congr 1
    rw [laneOf_parity hw hw2]
    apply propext
    split
    · rename_i hc; simp only [hc, true_iff]
    · rename_i hc; simp only [hc, false_iff]; omega

/-- **C168**, partial: for slices of even length `merge_interleaved` takes the elements with even indices from the
first slice, the others from the second. Missing: odd lengths (`C168_interleaved`, `C168_false`). -/
theorem C168_partial [Packable α] {F : Vector α w → Vector α w → Res (Vector α w)} (hF : InterleavedOp F)
    (hw : 0 < w) (hw2 : w % 2 = 0) (hs : 0 < Packable.size α) (fuel : Nat) (xs ys : List α) (dx dy : Vector α w)
    (h : xs.length = ys.length) (he : xs.length % 2 = 0) (hlen : xs.length + w < c.usize)
    (hvec : w * Packable.size α < c.usize) (hfuel : xs.length / w < fuel) :
    (do
      let z ← zip c (simdIter xs dx) (simdIter ys dy, ())
      let (_, out) ← scalarCollect c fuel (zsimdMap z () (useOp2 F))
      ok out) = ok (((List.zip xs ys).mapIdx fun j p => if j % 2 = 0 then p.1 else p.2).map some) := by
  rw [C168_interleaved (c := c) hF hw hw2 hs fuel xs ys dx dy h hlen hvec hfuel]
  simp only [he, or_true, true_iff]

/-- **C168** for the versions of `merge_interleaved`. -/
theorem C168_versions (c : Cfg) (hw2 : w % 2 = 0) :
    InterleavedOp (mergeInterleavedFallback (α := α) (w := w) c) ∧
    (∀ n s, n = 8 * s → 0 < s → InterleavedOp fun u v : Vector (BitVec n) w => ok (mergeInterleavedBlend u v)) :=
  ⟨fun u v => C35_interleaved_fallback c hw2 u v, fun _ _ hn hs u v => congrArg ok (C35_interleaved_blend hn hs u v)⟩

/-- **C168** does not hold: of slices with three elements those with odd indices are taken from the first slice. -/
theorem C168_false :
    (do
      let z ← zip debug64 (simdIter [1#32, 2#32, 3#32] (Packed.splat 0 : Vector (BitVec 32) 4))
        (simdIter [11#32, 12#32, 13#32] (Packed.splat 0 : Vector (BitVec 32) 4), ())
      let (_, out) ← scalarCollect debug64 9 (zsimdMap z () (useOp2 (mergeInterleavedFallback (α := BitVec 32) (w := 4) debug64)))
      ok out) = ok ([11#32, 2#32, 13#32].map some) := by
  exact (C168_interleaved (c := debug64) (C168_versions (α := BitVec 32) (w := 4) debug64 (by decide)).1 (by decide) (by decide) (by decide) 9
    [1#32, 2#32, 3#32] [11#32, 12#32, 13#32] (Packed.splat 0) (Packed.splat 0) rfl (by decide) (by decide)
    (by decide)).trans (by decide +kernel)

/-- Five elements in vectors of four lanes: the last one is shown in lane 3. -/
example : (List.range 5).map (laneOf 4 5) = [0, 1, 2, 3, 3] := by decide

end Faster
