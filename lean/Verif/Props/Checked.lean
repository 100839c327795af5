import Verif.SoftExamples
import Verif.Props.Soft
import Verif.Props.FillAny
import Verif.Props.EndToEnd
import Verif.Props.Examples
import Verif.Props.FusionAll
import Verif.Props.Destride
/-
C139: lane-wise closures which panic in a lane (overflow checks of the software vectors, division by
zero). When does a pipeline panic?
-/
namespace Faster
open Res SIMDSized SIMDIterable SIMDIterator

/-! ### Vocabulary -/

/-- `G` computes `g` in every lane, and panics if `g` does in some lane. -/
structure Lifts {α β : Type} {w : Nat} (G : Vector α w → Res (Vector β w)) (g : α → Res β) : Prop where
  total : ∀ x, (∃ y, g x = ok y) ∨ g x = Res.panic
  lanes : ∀ v r, (∀ i (hi : i < w), g v[i] = ok r[i]) → G v = ok r
  panics : ∀ v i (hi : i < w), g v[i] = Res.panic → G v = Res.panic

/-- The default lanes of the last vector of a pass. -/
def padLanes {α : Type} (w : Nat) (d : Vector α w) (l : List α) : List α :=
  if l.length % w = 0 then [] else d.toList.take (w - l.length % w)

/-! ### Lane-wise closures compose -/

section
variable {α β γ : Type} {w : Nat}

/-- In a vector all lanes of which are fine, all results can be taken together. -/
theorem Lifts.all_or {g : α → Res β} (ht : ∀ x, (∃ y, g x = ok y) ∨ g x = Res.panic) (v : Vector α w) :
    (∃ r : Vector β w, ∀ i (hi : i < w), g v[i] = ok r[i]) ∨ ∃ i, ∃ hi : i < w, g v[i] = Res.panic := by
  by_cases h : ∃ i, ∃ hi : i < w, g v[i] = Res.panic
  · exact .inr h
  · left
    have h1 : ∀ i (hi : i < w), ∃ y, g v[i] = ok y := fun i hi =>
      (ht v[i]).resolve_right fun e => h ⟨i, hi, e⟩
    refine ⟨Vector.ofFn fun i => (h1 i.val i.isLt).choose, fun i hi => ?_⟩
    rw [Vector.getElem_ofFn]
    exact (h1 i hi).choose_spec

/-- A closure without checks. -/
theorem Lifts.pure (g : α → β) : Lifts (fun v : Vector α w => ok (v.map g)) (fun x => ok (g x)) where
  total x := .inl ⟨_, rfl⟩
  lanes v r h := by
    congr 1
    ext i hi
    have := h i hi
    simp only [ok.injEq] at this
    simp [this]
  panics v i hi h := by cases h

/-- A vector with the same value in all lanes. -/
theorem Lifts.splat (y : β) : Lifts (fun _ : Vector α w => ok (Vector.replicate w y)) (fun _ => ok y) where
  total x := .inl ⟨_, rfl⟩
  lanes v r h := by
    congr 1
    ext i hi
    have := h i hi
    simp only [ok.injEq] at this
    simp [this]
  panics v i hi h := by cases h

/-- One closure after the other. -/
theorem Lifts.comp {G : Vector α w → Res (Vector β w)} {g : α → Res β} {H : Vector β w → Res (Vector γ w)}
    {h : β → Res γ} (hG : Lifts G g) (hH : Lifts H h) :
    Lifts (fun v => G v >>= H) (fun x => g x >>= h) where
  total x := by
    rcases hG.total x with ⟨y, e⟩ | e
    · rw [e]; exact hH.total y
    · rw [e]; exact .inr rfl
  lanes v r hr := by
    rcases Lifts.all_or hG.total v with ⟨u, hu⟩ | ⟨i, hi, e⟩
    · rw [hG.lanes v u hu, ok_bind]
      refine hH.lanes u r fun i hi => ?_
      have := hr i hi
      rwa [hu i hi, ok_bind] at this
    · have := hr i hi
      rw [e] at this; cases this
  panics v i hi e := by
    rcases Lifts.all_or hG.total v with ⟨u, hu⟩ | ⟨j, hj, e'⟩
    · rw [hG.lanes v u hu, ok_bind]
      refine hH.panics u i hi ?_
      rwa [hu i hi, ok_bind] at e
    · rw [hG.panics v j hj e']; rfl

/-- An operator of the software vectors, applied to the results of two closures. -/
theorem Lifts.binop {op : β → β → Res β} (zero : β) {G H : Vector α w → Res (Vector β w)}
    {g h : α → Res β} (ho : ∀ a b, (∃ y, op a b = ok y) ∨ op a b = Res.panic)
    (hG : Lifts G g) (hH : Lifts H h) :
    Lifts (fun v => G v >>= fun a => H v >>= fun b => Soft.binop op zero a b)
      (fun x => g x >>= fun a => h x >>= fun b => op a b) where
  total x := by
    rcases hG.total x with ⟨y, e⟩ | e
    · rcases hH.total x with ⟨z, e'⟩ | e'
      · rw [e, e', ok_bind, ok_bind]; exact ho y z
      · rw [e, e']; exact .inr rfl
    · rw [e]; exact .inr rfl
  lanes v r hr := by
    rcases Lifts.all_or hG.total v with ⟨u, hu⟩ | ⟨i, hi, e⟩
    · rcases Lifts.all_or hH.total v with ⟨u', hu'⟩ | ⟨i, hi, e⟩
      · rw [hG.lanes v u hu, ok_bind, hH.lanes v u' hu', ok_bind]
        refine C59_lanes op zero u u' r fun i hi => ?_
        have := hr i hi
        rwa [hu i hi, hu' i hi, ok_bind, ok_bind] at this
      · have := hr i hi
        rw [e, hu i hi] at this; cases this
    · have := hr i hi
      rw [e] at this; cases this
  panics v i hi e := by
    rcases Lifts.all_or hG.total v with ⟨u, hu⟩ | ⟨j, hj, e'⟩
    · rcases Lifts.all_or hH.total v with ⟨u', hu'⟩ | ⟨j, hj, e'⟩
      · rw [hG.lanes v u hu, ok_bind, hH.lanes v u' hu', ok_bind]
        rw [hu i hi, hu' i hi, ok_bind, ok_bind] at e
        -- the first lane which panics
        have : ∃ m, ∃ hm : m < w, (∀ j (hj : j < m), ∃ z, op u[j] u'[j] = ok z) ∧
            op u[m] u'[m] = Res.panic := by
          induction i using Nat.strongRecOn with
          | _ i ih =>
            by_cases hb : ∃ j, ∃ hj : j < i, op u[j] u'[j] = Res.panic
            · obtain ⟨j, hj, e1⟩ := hb
              exact ih j hj (by omega) e1
            · exact ⟨i, hi, fun j hj => (ho _ _).resolve_right fun e1 => hb ⟨j, hj, e1⟩, e⟩
        obtain ⟨m, hm, h1, h2⟩ := this
        exact C59_panics op zero u u' m hm h1 h2
      · rw [hG.lanes v u hu, ok_bind, hH.panics v j hj e']; rfl
    · rw [hG.panics v j hj e']; rfl

theorem overflowCheck_total {n : Nat} (c : Cfg) (k : Kind) (x : Int) (r : BitVec n) :
    (∃ y, overflowCheck c k x r = ok y) ∨ overflowCheck c k x r = Res.panic := by
  unfold overflowCheck
  split
  · exact .inl ⟨_, rfl⟩
  · split
    · exact .inr rfl
    · exact .inl ⟨_, rfl⟩

/-! ### Passes -/

theorem mapM_total {g : α → Res β} (ht : ∀ x, (∃ y, g x = ok y) ∨ g x = Res.panic) (l : List α)
    (h : ∃ x ∈ l, g x = Res.panic) : l.mapM g = Res.panic := by
  induction l with
  | nil => simp at h
  | cons x l ih =>
    rw [List.mapM_cons]
    rcases ht x with ⟨y, e⟩ | e
    · rw [e, ok_bind, ih]
      · rfl
      · obtain ⟨z, hz, e'⟩ := h
        rcases List.mem_cons.mp hz with rfl | hz
        · rw [e] at e'; cases e'
        · exact ⟨z, hz, e'⟩
    · rw [e]; rfl

theorem mapM_fine {g : α → Res β} {h : α → β} (l : List α) (hl : ∀ x ∈ l, g x = ok (h x)) :
    l.mapM g = ok (l.map h) := by
  induction l with
  | nil => rfl
  | cons x l ih =>
    rw [List.mapM_cons, hl x (by simp), ih fun y hy => hl y (by simp [hy])]
    rfl

/-- The lanes of the vectors of a pass are the elements and the default lanes of the last vector. -/
theorem mem_lanes_calls (hw : 0 < w) (d : Vector α w) (l : List α) (x : α) :
    x ∈ lanes (calls w d l) ↔ x ∈ l ∨ x ∈ padLanes w d l := by
  have hm := Nat.mod_lt l.length hw
  have hlo := leftover_length w l
  have key := lanes_fullWindows hw l
  unfold calls padLanes
  split
  · rename_i h0
    have : leftover w l = [] := List.length_eq_zero_iff.mp (by omega)
    rw [this, List.append_nil] at key
    simp [key]
  · rw [lanes_append, lanes_cons, lanes_nil, List.append_nil]
    have e : (padFront d (leftover w l)).toList =
        d.toList.take (w - l.length % w) ++ leftover w l := by
      rw [← List.take_append_drop (w - (leftover w l).length) (padFront d (leftover w l)).toList,
        padFront_drop d _ (by omega)]
      congr 1
      apply List.ext_getElem
      · simp; omega
      · intro i h1 h2
        simp at h1 h2
        simp only [List.getElem_take, Vector.getElem_toList]
        rw [padFront_getElem _ _ _ (by omega) (by omega), dif_pos (by omega)]
    have : x ∈ l ↔ x ∈ lanes (fullWindows w l) ++ leftover w l := by rw [key]
    rw [e, this]
    simp only [List.mem_append]
    constructor
    · rintro (h | h | h)
      · exact .inl (.inl h)
      · exact .inr h
      · exact .inl (.inr h)
    · rintro ((h | h) | h)
      · exact .inl h
      · exact .inr (.inr h)
      · exact .inr (.inl h)

theorem callAll_lifts_panic {G : Vector α w → Res (Vector β w)} {g : α → Res β} (h : Lifts G g)
    (vs : List (Vector α w)) (hp : ∃ x ∈ lanes vs, g x = Res.panic) :
    callAll (useOp G) () vs = Res.panic := by
  induction vs with
  | nil => simp at hp
  | cons v vs ih =>
    simp only [callAll, useOp]
    rcases Lifts.all_or h.total v with ⟨r, hr⟩ | ⟨i, hi, e⟩
    · rw [h.lanes v r hr, ok_bind, ok_bind]
      have : ∃ x ∈ lanes vs, g x = Res.panic := by
        obtain ⟨x, hx, e⟩ := hp
        rw [lanes_cons, List.mem_append] at hx
        rcases hx with hx | hx
        · obtain ⟨i, hi, rfl⟩ := List.getElem_of_mem hx
          have := hr i (by simpa using hi)
          simp only [Vector.getElem_toList] at e
          rw [e] at this; cases this
        · exact ⟨x, hx, e⟩
      rw [ih this]; rfl
    · rw [h.panics v i hi e]; rfl

theorem callAll_lifts_ok {G : Vector α w → Res (Vector β w)} {g : α → Res β} (h : Lifts G g)
    {k : α → β} (vs : List (Vector α w)) (hp : ∀ x ∈ lanes vs, g x = ok (k x)) :
    callAll (useOp G) () vs = ok (vs.map (Vector.map k), ()) := by
  induction vs with
  | nil => rfl
  | cons v vs ih =>
    simp only [callAll, useOp]
    rw [h.lanes v (v.map k) fun i hi => by
      rw [Vector.getElem_map]
      exact hp _ (by rw [lanes_cons, List.mem_append]; left; simp)]
    rw [ok_bind, ok_bind, ih fun x hx => hp x (by rw [lanes_cons, List.mem_append]; exact .inr hx)]
    rfl

/-- The calls of a pass, and what is made of their results. -/
theorem pass_lifts {T : Type} {G : Vector α w → Res (Vector β w)} {g : α → Res β} (h : Lifts G g)
    (hw : 0 < w) (d : Vector α w) (l : List α) (K : List β → T) :
    (callAll (useOp G) () (calls w d l) >>= fun q =>
      ok (K (unpad ((w - l.length % w) % w) q.1))) =
    (do
      let rs ← l.mapM g
      let _ ← (padLanes w d l).mapM g
      ok (K rs)) := by
  by_cases hp : ∃ x ∈ lanes (calls w d l), g x = Res.panic
  · rw [callAll_lifts_panic h _ hp]
    obtain ⟨x, hx, e⟩ := hp
    by_cases h1 : ∃ x ∈ l, g x = Res.panic
    · rw [mapM_total h.total _ h1]; rfl
    · have h2 : x ∈ padLanes w d l :=
        ((mem_lanes_calls hw d l x).mp hx).resolve_left fun h3 => h1 ⟨x, h3, e⟩
      rw [mapM_total h.total (padLanes w d l) ⟨x, h2, e⟩]
      by_cases hn : Nonempty β
      · obtain ⟨y0⟩ := hn
        have : ∀ x ∈ l, g x = ok (match g x with | ok y => y | _ => y0) := by
          intro x hx
          rcases h.total x with ⟨y, e⟩ | e
          · rw [e]
          · exact absurd ⟨x, hx, e⟩ h1
        rw [mapM_fine l this]; rfl
      · cases l with
        | nil => rfl
        | cons a l =>
          rcases h.total a with ⟨y, -⟩ | e
          · exact absurd ⟨y⟩ hn
          · exact absurd ⟨a, by simp, e⟩ h1
  · cases l with
    | nil =>
      have e : calls w d ([] : List α) = [] := by
        have := lanes_length (calls w d ([] : List α))
        apply List.length_eq_zero_iff.mp
        simp [calls, fullWindows_length]
      rw [e]
      simp [callAll, padLanes, unpad]
    | cons a l =>
      have hx : ∀ x ∈ lanes (calls w d (a :: l)), ∃ y, g x = ok y := fun x hx =>
        (h.total x).resolve_right fun e => hp ⟨x, hx, e⟩
      obtain ⟨y0, -⟩ := hx a ((mem_lanes_calls hw d _ a).mpr (.inl (by simp)))
      have hk : ∀ x ∈ lanes (calls w d (a :: l)), g x = ok (match g x with | ok y => y | _ => y0) := by
        intro x h1
        obtain ⟨y, e⟩ := hx x h1
        rw [e]
      rw [callAll_lifts_ok h _ hk,
        mapM_fine (a :: l) (fun x h1 => hk x ((mem_lanes_calls hw d _ x).mpr (.inl h1))),
        mapM_fine (padLanes w d (a :: l)) (fun x h1 => hk x ((mem_lanes_calls hw d _ x).mpr (.inr h1)))]
      simp only [ok_bind]
      rw [unpad_map, unpad_calls hw]

end

/-! ### C139 -/

section
variable {I α β : Type} {w : Nat} [SIMDSized I] [SIMDIterator I α w] [Packable α] [Packable β]

/-- **C139**, exactly, for any iterator which walks over a list: `scalar_collect` of a checked
lane-wise map returns the results of the elements if the scalar computation succeeds for every
element and for the default lanes of the last vector, and panics otherwise. -/
theorem C139_driver {c : Cfg} {S : Nat → I} {l : List α} {d : Vector α w} {more : Nat → Prop}
    (h : Driver c S l d more) (fuel : Nat) {G : Vector α w → Res (Vector β w)} {g : α → Res β}
    (hG : Lifts G g) (hw : 0 < w) (hs : 0 < Packable.size β)
    (hsize : Packable.size α = Packable.size β) (hlen : l.length + w < c.usize)
    (hvec : w * Packable.size α < c.usize) (hfuel : l.length / w < fuel) :
    scalarCollect c fuel (simdMap (S 0) () (useOp G)) = (do
      let rs ← l.mapM g
      let _ ← (padLanes w d l).mapM g
      ok (⟨S l.length, (), useOp G⟩, rs.map some)) := by
  have hdm := Nat.div_mul_le_self l.length w
  rw [h.collect_map fuel () (useOp G) hw hw hs (by rw [hsize]) (by rw [Nat.succ_mul]; omega) hvec hfuel,
    ← hsize, Nat.mul_div_cancel _ (by omega)]
  exact pass_lifts hG hw d l fun rs => ((⟨S l.length, (), useOp G⟩ : SIMDMap I Unit α w β w), rs.map some)

end

section
variable {α β : Type} {w : Nat} [Packable α] [Packable β]

/-- **C139**, exactly, for slices. -/
theorem C139_exact (c : Cfg) (fuel : Nat) (data : List α) (d : Vector α w)
    {G : Vector α w → Res (Vector β w)} {g : α → Res β}
    (hG : Lifts G g) (hw : 0 < w) (hs : 0 < Packable.size β)
    (hsize : Packable.size α = Packable.size β) (hlen : data.length + w < c.usize)
    (hvec : w * Packable.size α < c.usize) (hfuel : data.length / w < fuel) :
    scalarCollect c fuel (simdMap (simdIter data d) () (useOp G)) = (do
      let rs ← data.mapM g
      let _ ← (padLanes w d data).mapM g
      ok (⟨⟨data.length, ⟨data⟩, d⟩, (), useOp G⟩, rs.map some)) :=
  C139_driver (simdIter_driver (represents_slice (w := w) c data) d hw hlen) fuel hG hw hs hsize hlen
    hvec hfuel

/-- **C139**, the part which holds: if the scalar computation succeeds for the lanes of the default,
or the length is a multiple of the number of lanes, the pipeline panics exactly if the scalar
computation does for some element. Missing: defaults for which the computation panics
(`C139_false`, `C139_exact`). -/
theorem C139_collect_partial (c : Cfg) (fuel : Nat) (data : List α) (d : Vector α w)
    {G : Vector α w → Res (Vector β w)} {g : α → Res β}
    (hG : Lifts G g) (hw : 0 < w) (hs : 0 < Packable.size β)
    (hsize : Packable.size α = Packable.size β) (hlen : data.length + w < c.usize)
    (hvec : w * Packable.size α < c.usize) (hfuel : data.length / w < fuel)
    (hd : data.length % w = 0 ∨ ∀ i (hi : i < w), ∃ y, g d[i] = ok y) :
    scalarCollect c fuel (simdMap (simdIter data d) () (useOp G)) = (do
      let rs ← data.mapM g
      ok (⟨⟨data.length, ⟨data⟩, d⟩, (), useOp G⟩, rs.map some)) := by
  have hp : ∃ ys, (padLanes w d data).mapM g = ok ys := by
    unfold padLanes
    split
    · exact ⟨[], rfl⟩
    · rename_i h0
      obtain ⟨ys, h1, -⟩ := mapM_exists g (fun _ _ => True) (d.toList.take (w - data.length % w)) (by
        intro x hx
        obtain ⟨i, hi, rfl⟩ := List.getElem_of_mem (List.mem_of_mem_take hx)
        obtain ⟨y, e⟩ := (hd.resolve_left h0) i (by simpa using hi)
        exact ⟨y, by simpa using e, trivial⟩)
      exact ⟨ys, h1⟩
  obtain ⟨ys, hp⟩ := hp
  rw [C139_exact c fuel data d hG hw hs hsize hlen hvec hfuel, hp]
  rfl

/-- When the pipeline panics, for slices. -/
theorem C139_panics_iff (c : Cfg) (fuel : Nat) (data : List α) (d : Vector α w)
    {G : Vector α w → Res (Vector β w)} {g : α → Res β}
    (hG : Lifts G g) (hw : 0 < w) (hs : 0 < Packable.size β)
    (hsize : Packable.size α = Packable.size β) (hlen : data.length + w < c.usize)
    (hvec : w * Packable.size α < c.usize) (hfuel : data.length / w < fuel) :
    scalarCollect c fuel (simdMap (simdIter data d) () (useOp G)) = Res.panic ↔
      (∃ x ∈ data, g x = Res.panic) ∨
      (data.length % w ≠ 0 ∧ ∃ i, ∃ hi : i < w, i < w - data.length % w ∧ g d[i] = Res.panic) := by
  have key : ∀ l : List α, ((∃ ys, l.mapM g = ok ys) ∧ ¬ ∃ x ∈ l, g x = Res.panic) ∨
      (l.mapM g = Res.panic ∧ ∃ x ∈ l, g x = Res.panic) := by
    intro l
    by_cases h : ∃ x ∈ l, g x = Res.panic
    · exact .inr ⟨mapM_total hG.total l h, h⟩
    · refine .inl ⟨?_, h⟩
      obtain ⟨ys, h1, -⟩ := mapM_exists g (fun _ _ => True) l (fun x hx => by
        obtain ⟨y, e⟩ := (hG.total x).resolve_right fun e => h ⟨x, hx, e⟩
        exact ⟨y, e, trivial⟩)
      exact ⟨ys, h1⟩
  have hpad : (∃ x ∈ padLanes w d data, g x = Res.panic) ↔
      (data.length % w ≠ 0 ∧ ∃ i, ∃ hi : i < w, i < w - data.length % w ∧ g d[i] = Res.panic) := by
    unfold padLanes
    split
    · rename_i h0; simp [h0]
    · rename_i h0
      constructor
      · rintro ⟨x, hx, e⟩
        obtain ⟨i, hi, rfl⟩ := List.getElem_of_mem hx
        simp only [List.length_take, Vector.length_toList] at hi
        exact ⟨h0, i, by omega, by omega, by simpa using e⟩
      · rintro ⟨-, i, hi, h1, e⟩
        refine ⟨d[i], ?_, e⟩
        rw [List.mem_iff_getElem]
        exact ⟨i, by simp; omega, by simp⟩
  rw [C139_exact c fuel data d hG hw hs hsize hlen hvec hfuel, ← hpad]
  rcases key data with ⟨⟨ys, e⟩, h1⟩ | ⟨e, h1⟩
  · rcases key (padLanes w d data) with ⟨⟨zs, e'⟩, h2⟩ | ⟨e', h2⟩
    · rw [e, e']
      simp only [ok_bind, reduceCtorEq, false_iff, not_or]
      exact ⟨h1, h2⟩
    · rw [e, e']
      simp only [ok_bind]
      exact ⟨fun _ => .inr h2, fun _ => rfl⟩
  · rw [e]
    exact ⟨fun _ => .inl h1, fun _ => rfl⟩

/-- **C139** is false: `v - u8s(1)` on a target without vector instructions, in a debug build, on a
slice of three elements none of which is zero. The same on four elements is fine. -/
theorem C139_false :
    scalarCollect debug64 9 (simdMap (simdIter (w := 4) [5#8, 6, 7] (Vector.replicate 4 0)) ()
      (useOp fun v => Soft.binop (subInt debug64 .u) 0#8 v (Vector.replicate 4 1#8))) = Res.panic ∧
    [5#8, 6, 7].mapM (fun x => subInt debug64 .u x 1#8) = ok [4, 5, 6] ∧
    (do
      let (_, out) ← scalarCollect debug64 9 (simdMap (simdIter (w := 4) [5#8, 6, 7, 8] (Vector.replicate 4 0)) ()
        (useOp fun v => Soft.binop (subInt debug64 .u) 0#8 v (Vector.replicate 4 1#8)))
      ok out) = ok ([4#8, 5, 6, 7].map some) := by
  have hG : Lifts (w := 4) (fun v => Soft.binop (subInt debug64 .u) 0#8 v (Vector.replicate 4 1#8))
      (fun x => subInt debug64 .u x 1#8) := by
    have := Lifts.binop (w := 4) (op := subInt (n := 8) debug64 .u) 0#8
      (fun a b => overflowCheck_total _ _ _ _) (Lifts.pure id) (Lifts.splat 1#8)
    simpa using this
  refine ⟨(C139_panics_iff debug64 9 _ _ hG (by decide) (by decide) rfl (by decide) (by decide)
    (by decide)).mpr (.inr ⟨by decide, 0, by decide, by decide, by decide⟩), by decide, by decide +kernel⟩

/-- **C139**, `scalar_fill`, exactly, if the buffer is long enough. -/
theorem C139_fill (c : Cfg) (fuel : Nat) (data : List α) (d : Vector α w) (buf : List β)
    {G : Vector α w → Res (Vector β w)} {g : α → Res β}
    (hG : Lifts G g) (hw : 0 < w) (hs : 0 < Packable.size β)
    (hsize : Packable.size α = Packable.size β) (hb : data.length ≤ buf.length)
    (hlen : buf.length + data.length + 2 * w + w * Packable.size α < c.usize)
    (hfuel : data.length / w < fuel) :
    scalarFill c fuel (simdMap (simdIter data d) () (useOp G)) buf = (do
      let rs ← data.mapM g
      let _ ← (padLanes w d data).mapM g
      ok (⟨⟨data.length, ⟨data⟩, d⟩, (), useOp G⟩, rs ++ buf.drop data.length)) := by
  have hdm := Nat.div_add_mod data.length w
  have hm := Nat.mod_lt data.length hw
  have hq : (data.length / w + 2) * w = w * (data.length / w) + 2 * w := by
    rw [Nat.add_mul, Nat.mul_comm]
  have hn : (w - data.length % w) % w * Packable.size α / Packable.size β = (w - data.length % w) % w := by
    rw [← hsize, Nat.mul_div_cancel _ (by omega)]
  have hnw := Nat.mod_lt (w - data.length % w) hw
  rw [C08_fill_outcome c fuel data d () (useOp G) buf hw hw hs (data.length / w)
    ((w - data.length % w) % w) rfl hn.symm (by omega) (by omega) hfuel,
    if_neg (by rw [Nat.mul_comm]; omega)]
  simp only [show ¬ w < (w - data.length % w) % w by omega, if_false]
  have hc2 : ¬ (data.length % w ≠ 0 ∧
      buf.length < data.length / w * w + (w - (w - data.length % w) % w)) := by
    rintro ⟨h0, h1⟩
    rw [Nat.mod_eq_of_lt (by omega : w - data.length % w < w), Nat.mul_comm] at h1
    omega
  simp only [hc2, if_false]
  have := pass_lifts hG hw d data fun rs =>
    ((⟨⟨data.length, ⟨data⟩, d⟩, (), useOp G⟩ : SIMDMap (SIMDIter (Slice α w) α w) Unit α w β w),
      splice buf 0 rs)
  refine Eq.trans this ?_
  cases hr : data.mapM g with
  | ok rs =>
    simp only [ok_bind]
    have hl : rs.length = data.length := mapM_length _ _ hr
    rw [show splice buf 0 rs = rs ++ buf.drop data.length by rw [splice]; simp [hl]]
  | _ => rfl

end

section
variable {I R α β γ δ : Type} {w : Nat} [SIMDSized I] [SIMDIterator I α w] [Packable α] [Packable β]
  [ZipRest R γ] [LawfulRest R γ δ w]

/-- **C139** for zips of any number of iterators, exactly: the rows and the rows of defaults in front
of the last incomplete one. -/
theorem C139_zip {c : Cfg} {S : Nat → I} {r : R} {rows : List (α × δ)} {dv : Vector (α × δ) w}
    {more : Nat → Prop} (hd : Driver c S (rows.map Prod.fst) (dv.map Prod.fst) more) (hw : 0 < w)
    (hr : LawfulRest.Rep c r (rows.map Prod.snd) (dv.map Prod.snd))
    (hu : rows.length + w < c.usize) (fuel : Nat)
    {G : Vector α w × γ → Res (Vector β w)} {g : α × δ → Res β}
    (hG : Lifts (fun v => G (packRow R v)) g) (hs : 0 < Packable.size β)
    (hsize : Packable.size α = Packable.size β)
    (hvec : w * Packable.size α < c.usize) (hfuel : rows.length / w < fuel) :
    (do
      let z ← zip c (S 0) r
      let (_, out) ← scalarCollect c fuel (zsimdMap z () (fun _ v => do ok (← G v, ())))
      ok out) = (do
      let rs ← rows.mapM g
      let _ ← (padLanes w dv rows).mapM g
      ok (rs.map some)) := by
  have hdm := Nat.div_mul_le_self rows.length w
  have h := zip_collect_any hd hw hr hu fuel () (fun _ v => do ok (← G v, ())) hw hs (by rw [hsize])
    (by rw [Nat.succ_mul]; omega) hvec hfuel
  have hcall : ∀ vs : List (Vector (α × δ) w),
      callAll (fun _ v => do ok (← G v, ())) () (vs.map (packRow R)) =
        callAll (useOp fun v => G (packRow R v)) () vs := by
    intro vs
    induction vs with
    | nil => rfl
    | cons v vs ih => simp only [List.map_cons, callAll, useOp, ih]
  rw [hcall, ← hsize, Nat.mul_div_cancel _ (by omega)] at h
  have h2 := congrArg (· >>= fun p => ok p.2) h
  simp only [bind_assoc, ok_bind] at h2
  exact h2.trans (pass_lifts hG hw dv rows fun rs => rs.map some)

end

/-! ### Reductions -/

section
variable {α β : Type} {w : Nat}

/-- `F` combines lane by lane with `op`, and panics if `op` does in some lane. -/
structure Lifts2 (F : Vector β w → Vector α w → Res (Vector β w)) (op : β → α → Res β) : Prop where
  total : ∀ a x, (∃ y, op a x = ok y) ∨ op a x = Res.panic
  lanes : ∀ a v r, (∀ i (hi : i < w), op a[i] v[i] = ok r[i]) → F a v = ok r
  panics : ∀ a v i (hi : i < w), op a[i] v[i] = Res.panic → F a v = Res.panic

/-- The operators of the software vectors. -/
theorem Lifts2.binop {op : β → β → Res β} (zero : β)
    (ho : ∀ a b, (∃ y, op a b = ok y) ∨ op a b = Res.panic) :
    Lifts2 (w := w) (Soft.binop op zero) op where
  total := ho
  lanes a v r h := C59_lanes op zero a v r h
  panics a v i hi h := by
    have := (Lifts.binop (w := w) zero ho (Lifts.pure Prod.fst) (Lifts.pure Prod.snd)).panics
      (Vector.ofFn fun i => (a[i], v[i])) i hi (by simpa using h)
    simp only [ok_bind] at this
    rw [← this]
    congr 1
    · ext i hi; simp
    · ext i hi; simp

/-- The values of lane `j` in the vectors of a pass. -/
def column (vs : List (Vector α w)) (j : Nat) (hj : j < w) : List α := vs.map fun v => v[j]

theorem foldlM_lifts {σ : Type} {F : Vector β w → Vector α w → Res (Vector β w)} {op : β → α → Res β}
    (h : Lifts2 F op) (st : σ) (vs : List (Vector α w)) (a : Vector β w) :
    (∀ r : Vector β w, (∀ j (hj : j < w), (column vs j hj).foldlM op a[j] = ok r[j]) →
      vs.foldlM (fun (p : Vector β w × σ) v => F p.1 v >>= fun u => ok (u, p.2)) (a, st) = ok (r, st)) ∧
    ((∃ j, ∃ hj : j < w, (column vs j hj).foldlM op a[j] = Res.panic) →
      vs.foldlM (fun (p : Vector β w × σ) v => F p.1 v >>= fun u => ok (u, p.2)) (a, st) = Res.panic) := by
  induction vs generalizing a with
  | nil =>
    constructor
    · intro r hr
      have : a = r := by
        ext j hj
        have := hr j hj
        simpa [column] using this
      rw [this]; rfl
    · rintro ⟨j, hj, e⟩
      cases e
  | cons v vs ih =>
    have hcol : ∀ j (hj : j < w), (column (v :: vs) j hj).foldlM op a[j] =
        op a[j] v[j] >>= fun y => (column vs j hj).foldlM op y := fun j hj => by
      simp [column, List.foldlM_cons]
    rcases Lifts.all_or (g := fun p : β × α => op p.1 p.2) (fun p => h.total p.1 p.2)
        (Vector.ofFn fun i : Fin w => (a[i], v[i])) with ⟨u, hu⟩ | ⟨i, hi, e⟩
    · have hu' : ∀ i (hi : i < w), op a[i] v[i] = ok u[i] := fun i hi => by simpa using hu i hi
      have hF := h.lanes a v u hu'
      rw [List.foldlM_cons, hF]
      simp only [ok_bind]
      constructor
      · intro r hr
        refine (ih u).1 r fun j hj => ?_
        have := hr j hj
        rwa [hcol, hu' j hj, ok_bind] at this
      · rintro ⟨j, hj, e⟩
        refine (ih u).2 ⟨j, hj, ?_⟩
        rwa [hcol, hu' j hj, ok_bind] at e
    · have e' : op a[i] v[i] = Res.panic := by simpa using e
      constructor
      · intro r hr
        have := hr i hi
        rw [hcol, e'] at this
        cases this
      · intro _
        rw [List.foldlM_cons, h.panics a v i hi e']
        rfl

/-- **C139**, reductions: each lane of the accumulator is reduced on its own, with the operator of
the lanes, over the lane of all vectors of the pass, those with default lanes included. If all lanes
succeed, their results are returned, and if one panics, so does the call. -/
theorem C139_reduce (c : Cfg) (fuel : Nat) (data : List α) (d : Vector α w) (start : Vector β w)
    {F : Vector β w → Vector α w → Res (Vector β w)} {op : β → α → Res β}
    (h : Lifts2 F op) (hw : 0 < w) (hlen : data.length + w < c.usize) (hfuel : data.length / w < fuel) :
    (∀ r : Vector β w, (∀ j (hj : j < w), (column (calls w d data) j hj).foldlM op start[j] = ok r[j]) →
      simdReduce c fuel (simdIter data d) start () (fun _ a v => F a v >>= fun u => ok (u, ())) =
        ok (⟨data.length, ⟨data⟩, d⟩, r, ())) ∧
    ((∃ j, ∃ hj : j < w, (column (calls w d data) j hj).foldlM op start[j] = Res.panic) →
      simdReduce c fuel (simdIter data d) start () (fun _ a v => F a v >>= fun u => ok (u, ())) =
        Res.panic) := by
  rw [C03_reduce_fold c fuel data d start () _ hw hlen hfuel]
  have key := foldlM_lifts h () (calls w d data) start
  constructor
  · intro r hr
    have := key.1 r hr
    exact (congrArg (· >>= fun p => ok ((⟨data.length, ⟨data⟩, d⟩ : SIMDIter (Slice α w) α w), p.1, p.2))
      this).trans rfl
  · intro hp
    have := key.2 hp
    exact (congrArg (· >>= fun p => ok ((⟨data.length, ⟨data⟩, d⟩ : SIMDIter (Slice α w) α w), p.1, p.2))
      this).trans rfl

/-- One of the two always applies. -/
theorem C139_reduce_total {op : β → α → Res β} (ho : ∀ a x, (∃ y, op a x = ok y) ∨ op a x = Res.panic)
    (vs : List (Vector α w)) (start : Vector β w) :
    (∃ r : Vector β w, ∀ j (hj : j < w), (column vs j hj).foldlM op start[j] = ok r[j]) ∨
    ∃ j, ∃ hj : j < w, (column vs j hj).foldlM op start[j] = Res.panic := by
  have hf : ∀ (l : List α) (a : β), (∃ y, l.foldlM op a = ok y) ∨ l.foldlM op a = Res.panic := by
    intro l
    induction l with
    | nil => exact fun a => .inl ⟨a, rfl⟩
    | cons x l ih =>
      intro a
      rw [List.foldlM_cons]
      rcases ho a x with ⟨y, e⟩ | e
      · rw [e, ok_bind]; exact ih y
      · rw [e]; exact .inr rfl
  have h1 := Lifts.all_or (w := w) (g := fun p : List α × β => p.1.foldlM op p.2) (fun p => hf p.1 p.2)
    (Vector.ofFn fun j : Fin w => (column vs j.val j.isLt, start[j]))
  rcases h1 with ⟨r, hr⟩ | ⟨j, hj, e⟩
  · exact .inl ⟨r, fun j hj => by simpa using hr j hj⟩
  · exact .inr ⟨j, hj, by simpa using e⟩

end

/-- A lane overflows in between, although the exact sum of all elements fits. -/
example : simdReduce debug64 9 (simdIter (w := 2) [100#8, 1, 100, 1, -100, 1] (Vector.replicate 2 0))
      (Vector.replicate 2 0#8) () (fun _ a v => Soft.binop (addInt debug64 .i) 0#8 a v >>= fun u => ok (u, ())) =
      Res.panic ∧
    [100#8, -100, 100, -100].foldlM (addInt debug64 .i) 0#8 = ok 0#8 := by decide +kernel

end Faster
