import Verif.Props.CheckedExamples
import Verif.Props.StrideZip
/-
C139 for stride_zip: closures with operators which may panic, over pairs of consecutive elements.
-/
namespace Faster
open Res SIMDSized SIMDIterable SIMDIterator

section
variable {α β : Type} {w : Nat}

/-- The pairs of lanes of the last call of a pass over a `stride_zip`. -/
def tailPairs (d : Vector α w) (l : List α) : List (α × α) :=
  (pairTail d l).toList.flatMap fun t => t.1.1.toList.zip t.1.2.toList

/-- The vector of pairs of a pair of vectors. -/
def zipV (v : Vector α w × Vector α w) : Vector (α × α) w := Vector.zipWith Prod.mk v.1 v.2

theorem unzipV_zipV (v : Vector α w × Vector α w) : unzipV (zipV v) = v := by
  obtain ⟨a, b⟩ := v
  simp only [unzipV, zipV, Prod.mk.injEq]
  constructor <;> ext i hi <;> simp

/-- The calls of a pass, as vectors of pairs. -/
def pairRows (d : Vector α w) (l : List α) : List (Vector (α × α) w) :=
  fullWindows w (pairsOf l) ++ (pairTail d l).toList.map fun t => zipV t.1

theorem pairCalls_rows (d : Vector α w) (l : List α) : pairCalls d l = (pairRows d l).map unzipV := by
  unfold pairCalls pairRows zwithTail
  rw [List.map_append, List.map_map]
  congr 1
  apply List.map_congr_left
  intro t _
  exact (unzipV_zipV t.1).symm

theorem lanes_fullPairs (hw : 0 < w) (l : List α) :
    lanes (fullWindows w (pairsOf l)) = (pairsOf l).take (l.length / 2 / w * w) := by
  have h2 := lanes_fullWindows hw (pairsOf l)
  have h3 : (lanes (fullWindows w (pairsOf l))).length = l.length / 2 / w * w := by
    rw [lanes_length, fullWindows_length, pairsOf_length]
  calc _ = (lanes (fullWindows w (pairsOf l)) ++ leftover w (pairsOf l)).take
        (lanes (fullWindows w (pairsOf l))).length := List.take_left.symm
    _ = _ := by rw [h2, h3]

theorem lanes_pairRows (hw : 0 < w) (d : Vector α w) (l : List α) :
    lanes (pairRows d l) = (pairsOf l).take (l.length / 2 / w * w) ++ tailPairs d l := by
  rw [pairRows, lanes_append, lanes_fullPairs hw, tailPairs]
  congr 1
  rcases pairTail d l with _ | t
  · rfl
  · simp [lanes_cons, zipV, Vector.toList_zipWith, List.zip]

theorem mapM_ok_or {g : α → Res β} (ht : ∀ x, (∃ y, g x = ok y) ∨ g x = Res.panic) (l : List α) :
    (∃ ys, l.mapM g = ok ys) ∨ l.mapM g = Res.panic := by
  induction l with
  | nil => exact .inl ⟨_, rfl⟩
  | cons x l ih =>
    rw [List.mapM_cons]
    rcases ht x with ⟨y, e⟩ | e
    · rw [e, ok_bind]
      rcases ih with ⟨ys, e⟩ | e
      · rw [e]; exact .inl ⟨_, rfl⟩
      · rw [e]; exact .inr rfl
    · rw [e]; exact .inr rfl

end

section
variable {α β : Type} {w : Nat} [Packable α] [Packable β]

/-- **C139** for `stride_zip`, exactly and for every length: the pairs which fill vectors are
computed, then all pairs of lanes of the last call, of which the first `zpadOf` are not collected;
the pass panics exactly if one of these computations does. -/
theorem C139_stride_zip (c : Cfg) (fuel : Nat) (l : List α) (d : Vector α w)
    {G : Vector α w × Vector α w → Res (Vector β w)} {g : α × α → Res β}
    (hG : Lifts (fun v => G (unzipV v)) g)
    (hw : 0 < w) (hs : 0 < Packable.size β) (hsize : Packable.size α = Packable.size β)
    (hu : l.length + 2 * w < c.usize)
    (hvec : w * Packable.size α < c.usize) (hfuel : l.length / 2 / w < fuel) :
    (do
      let z ← strideZip c (simdIter l d)
      let (_, out) ← scalarCollect c fuel (zsimdMap z () (fun _ v => do ok (← G v, ())))
      ok out) = (do
      let rs ← ((pairsOf l).take (l.length / 2 / w * w)).mapM g
      let ts ← (tailPairs d l).mapM g
      ok ((rs ++ ts.drop (zpadOf (pairTail d l))).map some)) := by
  have h1 := Nat.div_mul_le_self (l.length / 2) w
  rw [C29_stride_zip_collect c fuel l d () _ hw hw hs (by rw [hsize]) hu
    (by rw [Nat.succ_mul]; omega) hvec hfuel, pairCalls_rows]
  have hcall : ∀ vs : List (Vector (α × α) w),
      callAll (fun _ v => do ok (← G v, ())) () (vs.map unzipV) =
        callAll (useOp fun v => G (unzipV v)) () vs := by
    intro vs
    induction vs with
    | nil => rfl
    | cons v vs ih => simp only [List.map_cons, callAll, useOp, ih]
  rw [hcall, ← hsize, Nat.mul_div_cancel _ (by omega)]
  have hl := lanes_pairRows hw d l
  by_cases hp : ∃ x ∈ lanes (pairRows d l), g x = Res.panic
  · rw [callAll_lifts_panic hG _ hp]
    rw [hl] at hp
    obtain ⟨x, hx, e⟩ := hp
    rcases List.mem_append.mp hx with hx | hx
    · rw [mapM_total hG.total _ ⟨x, hx, e⟩]; rfl
    · rw [mapM_total hG.total (tailPairs d l) ⟨x, hx, e⟩]
      rcases mapM_ok_or hG.total ((pairsOf l).take (l.length / 2 / w * w)) with ⟨ys, e⟩ | e
      · rw [e]; rfl
      · rw [e]; rfl
  · have hx : ∀ x ∈ lanes (pairRows d l), ∃ y, g x = ok y := fun x hx =>
      (hG.total x).resolve_right fun e => hp ⟨x, hx, e⟩
    by_cases h0 : pairRows d l = []
    · have h2 := hl
      rw [h0] at h2
      obtain ⟨h3, h4⟩ := List.append_eq_nil_iff.mp h2.symm
      rw [h0, h3, h4]
      simp [callAll, unpad]
    · obtain ⟨v, vs, h0⟩ := List.exists_cons_of_ne_nil h0
      obtain ⟨y0, -⟩ := hx (v[0]) (by rw [h0, lanes_cons, List.mem_append]; left; simp)
      have hk : ∀ x ∈ lanes (pairRows d l), g x = ok (match g x with | ok y => y | _ => y0) := by
        intro x h1
        obtain ⟨y, e⟩ := hx x h1
        rw [e]
      rw [callAll_lifts_ok hG _ hk,
        mapM_fine _ (fun x h1 => hk x (by rw [hl, List.mem_append]; exact .inl h1)),
        mapM_fine (tailPairs d l) (fun x h1 => hk x (by rw [hl, List.mem_append]; exact .inr h1))]
      simp only [ok_bind]
      generalize (fun x => match g x with | ok y => y | _ => y0) = k
      congr 2
      have key := lanes_fullPairs hw l
      rw [pairRows, List.map_append]
      rcases ht : pairTail d l with _ | t
      · simp only [tailPairs, ht, Option.toList_none, List.flatMap_nil, List.append_nil, List.map_nil,
          zpadOf, Option.map_none, Option.getD_none, unpad_zero, List.drop_nil]
        rw [lanes_map, key]
      · simp only [tailPairs, ht, zpadOf, Option.toList_some, List.map_cons, List.map_nil, unpad_concat,
          Option.map_some, Option.getD_some, List.flatMap_cons, List.flatMap_nil, List.append_nil]
        rw [lanes_map, key]
        congr 2
        apply List.ext_getElem
        · simp
        · intro i h1 h2
          simp [zipV]

/-- **C139** for `stride_zip`, the part which holds: for a multiple of two vectors the pass panics
exactly if the computation of some pair does. Missing: other lengths, for which `C139_stride_zip` says
which other pairs of lanes are computed. -/
theorem C139_stride_zip_partial (c : Cfg) (fuel : Nat) (l : List α) (d : Vector α w)
    {G : Vector α w × Vector α w → Res (Vector β w)} {g : α × α → Res β}
    (hG : Lifts (fun v => G (unzipV v)) g) (h0 : l.length % (2 * w) = 0)
    (hw : 0 < w) (hs : 0 < Packable.size β) (hsize : Packable.size α = Packable.size β)
    (hu : l.length + 2 * w < c.usize)
    (hvec : w * Packable.size α < c.usize) (hfuel : l.length / 2 / w < fuel) :
    (do
      let z ← strideZip c (simdIter l d)
      let (_, out) ← scalarCollect c fuel (zsimdMap z () (fun _ v => do ok (← G v, ())))
      ok out) = (do
      let rs ← (pairsOf l).mapM g
      ok (rs.map some)) := by
  rw [C139_stride_zip c fuel l d hG hw hs hsize hu hvec hfuel]
  have h1 := Nat.div_add_mod l.length (2 * w)
  have h2 : l.length / 2 / w * w = l.length / 2 := by
    rw [Nat.div_div_eq_div_mul]
    generalize l.length / (2 * w) = m at *
    have : 2 * w * m = 2 * (m * w) := by rw [Nat.mul_assoc, Nat.mul_comm w m]
    omega
  rw [h2, List.take_of_length_le (by rw [pairsOf_length])]
  have h3 : pairTail d l = none := by simp [pairTail, h0]
  simp [tailPairs, h3]

/-- **C139** for zips of the two iterators of `stride_two`, exactly. -/
theorem C139_stride_two (c : Cfg) (fuel : Nat) (l : List α) (d d' : Vector α w)
    {G : Vector α w × Vector α w → Res (Vector β w)} {g : α × α → Res β}
    (hG : Lifts (fun v => G (unzipV v)) g)
    (hw : 0 < w) (hs : 0 < Packable.size β) (hsize : Packable.size α = Packable.size β)
    (hu : l.length + 2 * (w + 1) < c.usize)
    (hvec : w * Packable.size α < c.usize) (hfuel : l.length / 2 / w < fuel) :
    (do
      let t := strideTwo (⟨l⟩ : Slice α w) (d, d')
      let z ← zip c t.1 (t.2, ())
      let (_, out) ← scalarCollect c fuel (zsimdMap z ()
        (fun _ (v : Vector α w × Vector α w × Unit) => do ok (← G (v.1, v.2.1), ())))
      ok out) = (do
      let rs ← (pairsOf l).mapM g
      let _ ← (padLanes w (zipV (d, d')) (pairsOf l)).mapM g
      ok (rs.map some)) := by
  have h01 : (0 : Nat) < 2 := by omega
  have h12 : (1 : Nat) < 2 := by omega
  obtain ⟨S, more, hd, h0, -⟩ := strideAt_driver c l h01 d hw hu
  have hrows : rows2 (strided 2 0 l h01) (strided 2 1 l h12) =
      (pairsOf l).map fun p => (p.1, p.2, ()) := by
    apply List.ext_getElem
    · simp [rows2, pairsOf]
    · intro i h1 h2
      simp only [rows2, pairsOf, List.getElem_zipWith, strided_getElem, List.getElem_map,
        List.getElem_ofFn]
      congr 3 <;> omega
  have hlen : ((pairsOf l).map fun p => (p.1, p.2, ())).length = l.length / 2 := by
    simp [pairsOf_length]
  have e1 : ((pairsOf l).map fun p => (p.1, p.2, ())).map Prod.fst = strided 2 0 l h01 := by
    rw [← hrows]
    apply List.ext_getElem <;> simp [rows2]
  have e2 : (((pairsOf l).map fun p => (p.1, p.2, ())).map Prod.snd).map Prod.fst =
      strided 2 1 l h12 := by
    rw [← hrows]
    apply List.ext_getElem <;> simp [rows2]
  have e3 : ((zipV (d, d')).map fun p => (p.1, p.2, ())).map Prod.fst = d := by
    ext i hi; simp [zipV]
  have e4 : (((zipV (d, d')).map fun p => (p.1, p.2, ())).map Prod.snd).map Prod.fst = d' := by
    ext i hi; simp [zipV]
  have hG2 : Lifts (w := w) (fun v : Vector (α × α × Unit) w =>
        (fun t : Vector α w × Vector α w × Unit => G (t.1, t.2.1))
          (packRow (PackedStride (Slice α w) α w × Unit) v))
      (fun x => g (x.1, x.2.1)) := by
    have e : ∀ v : Vector (α × α × Unit) w,
        ((packRow (PackedStride (Slice α w) α w × Unit) v).1,
          (packRow (PackedStride (Slice α w) α w × Unit) v).2.1) =
        unzipV (v.map fun x => (x.1, x.2.1)) := by
      intro v
      simp only [packRow, unzipV, Prod.mk.injEq]
      constructor <;> ext i hi <;> simp [LawfulRest.pack]
    refine ⟨fun x => hG.total _, fun v r h => ?_, fun v i hi h => ?_⟩
    · simp only [e]
      exact hG.lanes _ r fun i hi => by simpa using h i hi
    · simp only [e]
      exact hG.panics _ i hi (by simpa using h)
  have key := C139_zip (c := c) (S := S) (more := more)
    (r := ((strideAt (⟨l⟩ : Slice α w) 2 1 d', ()) : PackedStride (Slice α w) α w × Unit))
    (rows := (pairsOf l).map fun p => (p.1, p.2, ()))
    (dv := (zipV (d, d')).map fun p => (p.1, p.2, ()))
    (G := fun t : Vector α w × Vector α w × Unit => G (t.1, t.2.1))
    (g := fun x => g (x.1, x.2.1))
    (by rw [e1, e3]; exact hd) hw
    (by
      refine ⟨?_, trivial⟩
      rw [e2, e4]
      exact repIter_strideAt c l h12 _ hw hu)
    (by omega) fuel hG2 hs hsize hvec (by rwa [hlen])
  rw [h0] at key
  refine Eq.trans key ?_
  have hp : padLanes w ((zipV (d, d')).map fun p => (p.1, p.2, ()))
      ((pairsOf l).map fun p => (p.1, p.2, ())) =
      (padLanes w (zipV (d, d')) (pairsOf l)).map fun p => (p.1, p.2, ()) := by
    unfold padLanes
    rw [List.length_map]
    split
    · rfl
    · rw [List.map_take, Vector.toList_map]
  rw [hp, List.mapM_map, List.mapM_map]
  rfl

end
end Faster
