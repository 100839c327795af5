import Verif.Props.EndToEnd
import Verif.Props.CompareSlices
import Verif.Props.Shuffle
/-
C167: mapping `flip` over a slice.
-/
namespace Faster
open Res

variable {α : Type} {w : Nat} {c : Cfg}

/-- What a scalar loop does: exchange the first two elements, the next two, and so on; a single last element
stays. -/
def swapPairs : List α → List α
  | x :: y :: l => y :: x :: swapPairs l
  | l => l

theorem swapPairs_length : ∀ l : List α, (swapPairs l).length = l.length
  | [] => rfl
  | [_] => rfl
  | x :: y :: l => by simp [swapPairs, swapPairs_length l]

theorem swapPairs_getElem? : ∀ (l : List α) (i : Nat), l.length % 2 = 0 →
    (swapPairs l)[i]? = if i % 2 = 0 then l[i + 1]? else l[i - 1]?
  | [], i, _ => by simp [swapPairs]
  | [_], _, h => by simp at h
  | x :: y :: l, 0, _ => by simp [swapPairs]
  | x :: y :: l, 1, _ => by simp [swapPairs]
  | x :: y :: l, i + 2, h => by
    have ih := swapPairs_getElem? l i (by simp only [List.length_cons] at h; omega)
    simp only [swapPairs, List.getElem?_cons_succ]
    rw [ih]
    have e : (i + 2) % 2 = i % 2 := by omega
    rw [e]
    split
    · rfl
    · obtain ⟨j, rfl⟩ : ∃ j, i = j + 1 := ⟨i - 1, by omega⟩
      simp

theorem swapPairs_append : ∀ a b : List α, a.length % 2 = 0 → swapPairs (a ++ b) = swapPairs a ++ swapPairs b
  | [], b, _ => rfl
  | [_], _, h => by simp at h
  | x :: y :: a, b, h => by
    simp only [List.cons_append, swapPairs]
    rw [swapPairs_append a b (by simp only [List.length_cons] at h; omega)]

theorem swapPairs_drop (p : Nat) (hp : p % 2 = 0) (l : List α) (hl : p ≤ l.length) :
    (swapPairs l).drop p = swapPairs (l.drop p) := by
  have ht : (l.take p).length = p := by rw [List.length_take]; omega
  conv => lhs; rw [← List.take_append_drop p l]
  rw [swapPairs_append _ _ (by rw [ht]; exact hp), List.drop_append_of_le_length (by rw [swapPairs_length, ht]),
    List.drop_of_length_le (by rw [swapPairs_length, ht]), List.nil_append]

theorem flipSpec_list (hw2 : w % 2 = 0) (v : Vector α w) : (flipSpec hw2 v).toList = swapPairs v.toList := by
  apply List.ext_getElem?
  intro i
  rw [swapPairs_getElem? _ _ (by simpa using hw2)]
  by_cases hi : i < w
  · rw [List.getElem?_eq_getElem (by simpa using hi)]
    by_cases h : i % 2 = 0
    · rw [if_pos h, List.getElem?_eq_getElem (by simp; omega)]
      simp [flipSpec, h]
    · rw [if_neg h, List.getElem?_eq_getElem (by simp; omega)]
      simp [flipSpec, h]
  · rw [List.getElem?_eq_none (by simp; omega)]
    split
    · rw [List.getElem?_eq_none (by simp; omega)]
    · rw [List.getElem?_eq_none (by simp; omega)]

theorem lanes_flip (hw2 : w % 2 = 0) (vs : List (Vector α w)) :
    lanes (vs.map (flipSpec hw2)) = swapPairs (lanes vs) := by
  induction vs with
  | nil => rfl
  | cons v vs ih =>
    rw [List.map_cons, lanes_cons, lanes_cons, ih, flipSpec_list, swapPairs_append _ _ (by simpa using hw2)]

theorem padFront_list (d : Vector α w) (r : List α) (h : r.length ≤ w) :
    (padFront d r).toList = d.toList.take (w - r.length) ++ r := by
  rw [← List.take_append_drop (w - r.length) (padFront d r).toList, padFront_drop d r h]
  congr 1
  apply List.ext_getElem
  · simp
  · intro i h1 h2
    simp only [List.length_take, Vector.length_toList] at h1
    simp only [List.getElem_take, Vector.getElem_toList]
    rw [padFront_getElem _ _ _ (by omega) h, dif_pos (by omega)]

/-- A version of `flip` (src/intrin/swizzle.rs:25-45; missing from the list of modules): lanes `2k` and `2k + 1` are exchanged. -/
def FlipOp (F : Vector α w → Res (Vector α w)) : Prop :=
  ∃ hw2 : w % 2 = 0, ∀ v, F v = ok (flipSpec hw2 v)

/-- The elements which `slice.simd_iter(d).simd_map(|v| v.flip())` delivers. -/
def flipped (d : Vector α w) (data : List α) : List α :=
  if data.length % 2 = 0 then swapPairs data
  else swapPairs (data.take (data.length / w * w)) ++
    (d.toList.take (w - data.length % w)).getLast?.toList ++ swapPairs ((leftover w data).drop 1)

theorem unpad_flip (hw : 0 < w) (hw2 : w % 2 = 0) (d : Vector α w) (data : List α) :
    unpad ((w - data.length % w) % w) ((calls w d data).map (flipSpec hw2)) = flipped d data := by
  have hm := Nat.mod_lt data.length hw
  have hdm := Nat.div_add_mod data.length w
  have hll := leftover_length w data
  have hkey := lanes_fullWindows hw data
  have hfull : lanes (fullWindows w data) = data.take (data.length / w * w) := by
    have := congrArg (List.take (data.length / w * w)) hkey
    rwa [List.take_left' (by rw [lanes_length, fullWindows_length])] at this
  have hpar : data.length % w % 2 = data.length % 2 := by
    have h2 : w * (data.length / w) % 2 = 0 := by rw [Nat.mul_mod, hw2]; simp
    omega
  by_cases h0 : data.length % w = 0
  · have hc : calls w d data = fullWindows w data := by unfold calls; rw [if_pos h0, List.append_nil]
    have hl : leftover w data = [] := List.eq_nil_of_length_eq_zero (by omega)
    rw [hl, List.append_nil] at hkey
    rw [hc, h0, Nat.sub_zero, Nat.mod_self, unpad_zero, lanes_flip, hkey]
    unfold flipped
    rw [if_pos (by omega)]
  · have hc : calls w d data = fullWindows w data ++ [padFront d (leftover w data)] := by
      unfold calls; rw [if_neg h0]
    rw [hc, List.map_append, List.map_cons, List.map_nil, unpad_concat, lanes_flip, flipSpec_list,
      Nat.mod_eq_of_lt (by omega), padFront_list _ _ (by omega), hll]
    have htl : (d.toList.take (w - data.length % w)).length = w - data.length % w := by simp
    unfold flipped
    by_cases he : data.length % 2 = 0
    · rw [if_pos he, swapPairs_drop _ (by omega) _ (by rw [List.length_append, htl]; omega),
        List.drop_left' htl, ← swapPairs_append _ _ (by rw [lanes_length, Nat.mul_mod, hw2]; simp), hkey]
    · rw [if_neg he, ← hfull, List.append_assoc]
      congr 1
      rcases List.eq_nil_or_concat (d.toList.take (w - data.length % w)) with e | ⟨p, x, e⟩
      · rw [e] at htl; simp at htl; omega
      · rw [List.concat_eq_append] at e
        rw [e] at htl ⊢
        rw [List.length_append, List.length_singleton] at htl
        cases hlo : leftover w data with
        | nil => rw [hlo] at hll; simp at hll; omega
        | cons y l =>
          rw [List.append_assoc, swapPairs_append _ _ (by omega), ← htl, ← List.drop_drop,
            List.drop_left' (swapPairs_length p)]
          simp [swapPairs]

/-- **C167**: what is collected, and what a pass in place leaves, for slices of all lengths. -/
theorem C167_exact [Packable α] {F : Vector α w → Res (Vector α w)} (hF : FlipOp F) (hw : 0 < w)
    (hs : 0 < Packable.size α) (fuel : Nat) (data : List α) (d : Vector α w) (hlen : data.length + w < c.usize)
    (hvec : w * Packable.size α < c.usize) (hfuel : data.length / w < fuel) :
    (do let (_, out) ← scalarCollect c fuel (simdMap (simdIter data d) () (useOp F)); ok out) =
      ok ((flipped d data).map some) ∧
    simdForEach c fuel () (useOp F) (simdIter data d) = (ok (), ⟨data.length, ⟨flipped d data⟩, d⟩) := by
  obtain ⟨hw2, hF⟩ := hF
  have hG : useOp F = pureFn (flipSpec hw2) := by
    funext st v
    simp [useOp, pureFn, hF v]
  have hdm := Nat.div_mul_le_self data.length w
  rw [hG, ← unpad_flip hw hw2 d data]
  constructor
  · rw [C05_collect_any_closure c fuel data d () _ hw hw hs rfl hlen (by rw [Nat.succ_mul]; omega) hvec hfuel,
      callAll_pure]
    simp only [ok_bind]
    rw [Nat.mul_div_cancel _ hs]
  · exact C10_for_each_any_closure c fuel data d () () _ _ hw hlen hfuel (callAll_pure _ _)

/-- **C167**, partial: slices of even length. Missing: odd lengths, where a lane of the default is exchanged with
an element (`C167_exact`, `C167_odd`). -/
theorem C167_partial [Packable α] {F : Vector α w → Res (Vector α w)} (hF : FlipOp F) (hw : 0 < w)
    (hs : 0 < Packable.size α) (fuel : Nat) (data : List α) (d : Vector α w) (he : data.length % 2 = 0)
    (hlen : data.length + w < c.usize) (hvec : w * Packable.size α < c.usize) (hfuel : data.length / w < fuel) :
    (do let (_, out) ← scalarCollect c fuel (simdMap (simdIter data d) () (useOp F)); ok out) =
      ok ((swapPairs data).map some) ∧
    simdForEach c fuel () (useOp F) (simdIter data d) = (ok (), ⟨data.length, ⟨swapPairs data⟩, d⟩) := by
  have := C167_exact (c := c) hF hw hs fuel data d hlen hvec hfuel
  rwa [flipped, if_pos he] at this

/-- **C167**, odd lengths: the element after the full vectors is lost, and a lane of the default takes its place. -/
theorem C167_odd (hw : 0 < w) (hw2 : w % 2 = 0) (data : List α) (d : Vector α w) (ho : data.length % 2 = 1) :
    (flipped d data)[data.length / w * w]? = d[w - data.length % w - 1]? ∧
      (flipped d data).length = data.length := by
  have hm := Nat.mod_lt data.length hw
  have hdm := Nat.div_add_mod data.length w
  have hll := leftover_length w data
  have hpar : data.length % w % 2 = 1 := by
    have h2 : w * (data.length / w) % 2 = 0 := by rw [Nat.mul_mod, hw2]; simp
    omega
  have hle := Nat.div_mul_le_self data.length w
  have hlt : (data.take (data.length / w * w)).length = data.length / w * w := by
    rw [List.length_take]; omega
  have hlast : (d.toList.take (w - data.length % w)).getLast? = some d[w - data.length % w - 1] := by
    rw [List.getLast?_eq_getElem?]
    simp only [List.length_take, Vector.length_toList]
    rw [List.getElem?_eq_getElem (by simp; omega)]
    simp
  unfold flipped
  rw [if_neg (by omega), hlast]
  constructor
  · rw [List.append_assoc, List.getElem?_append_right (by rw [swapPairs_length, hlt]), swapPairs_length, hlt,
      Nat.sub_self]
    simp
  · simp only [List.length_append, swapPairs_length, hlt, Option.toList_some, List.length_singleton,
      List.length_drop, hll]
    rw [Nat.mul_comm] at hdm
    omega

/-- **C167** for the versions of `flip`. -/
theorem C167_versions :
    (∀ r ∈ flipRows, FlipOp (flipFallback (α := BitVec (8 * r.size)) (w := r.width) r.idx) ∧
      FlipOp (w := r.width) (fun v : Vector (BitVec (8 * r.size)) r.width => ok (flipShuffle r.ctl v))) ∧
    (∀ r ∈ flipRows512, FlipOp (flipFallback (α := BitVec (8 * r.size)) (w := r.width) r.idx)) := by
  refine ⟨fun r hr => ?_, fun r hr => ?_⟩
  · obtain ⟨h2, h⟩ := C58.1 r hr
    exact ⟨⟨h2, fun v => (h v).1⟩, h2, fun v => congrArg ok (h v).2⟩
  · obtain ⟨h2, h⟩ := C58.2 r hr
    exact ⟨h2, h⟩

/-- **C167** does not hold for odd lengths: of three elements the first is lost and the default is returned. -/
theorem C167_false :
    (do let (_, out) ← scalarCollect debug64 9 (simdMap (simdIter [1#32, 2#32, 3#32] #v[7, 8, 9, 10]) ()
          (useOp (flipFallback (List.range 4)))); ok out) = ok ([7#32, 3#32, 2#32].map some) ∧
    swapPairs [1#32, 2#32, 3#32] = [2#32, 1#32, 3#32] := by
  refine ⟨?_, rfl⟩
  have h : FlipOp (flipFallback (α := BitVec 32) (w := 4) (List.range 4)) :=
    ⟨rfl, fun v => flipFallback_eq _ rfl v⟩
  exact (C167_exact (c := debug64) h (by decide) (by decide) 9 [1#32, 2#32, 3#32] #v[7, 8, 9, 10] (by decide)
    (by decide) (by decide)).1.trans (by decide +kernel)

/-- Six elements in vectors of four lanes. -/
example : flipped #v[7#32, 8, 9, 10] [1, 2, 3, 4, 5, 6] = [2, 1, 4, 3, 6, 5] := by decide +kernel

end Faster
