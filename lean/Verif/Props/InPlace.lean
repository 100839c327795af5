import Verif.Props.StagedAll
import Verif.Props.ForEach
/-
C152: passes of `simd_for_each` one after the other, compared with one pass and with collecting.
-/
namespace Faster
open Res

variable {α σ τ : Type} {w : Nat} {c : Cfg} [Packable α]

/-- The contents of the slice after `simd_for_each`. -/
def inPlace (c : Cfg) (fuel : Nat) (data : List α) (d : Vector α w) (s : σ)
    (f : FnMut σ (Vector α w) (Vector α w)) : List α :=
  (simdForEach c fuel s f (simdIter data d)).2.data.elems

variable (data : List α) (d d' : Vector α w)

/-- **C152**: a pass in place leaves what collecting the map returns, for any closure. -/
theorem C152_collect (fuel : Nat) (s : σ) (f : FnMut σ (Vector α w) (Vector α w))
    (us : List (Vector α w)) (s' : σ) (hw : 0 < w) (hs : 0 < Packable.size α)
    (hlen : data.length + w < c.usize) (hvec : w * Packable.size α < c.usize)
    (hfuel : data.length / w < fuel) (hf : callAll f s (calls w d data) = ok (us, s')) :
    (do
      let (_, out) ← scalarCollect c fuel (simdMap (simdIter data d) s f)
      ok out) = ok ((inPlace c fuel data d s f).map some) := by
  have h1 : (data.length / w + 1) * w < c.usize := by
    rw [Nat.succ_mul]
    have := Nat.div_mul_le_self data.length w
    omega
  unfold inPlace
  rw [C05_collect_any_closure c fuel data d s f hw hw hs rfl hlen h1 hvec hfuel, hf,
    C10_for_each_any_closure c fuel data d s s' f us hw hlen hfuel hf, Nat.mul_div_cancel _ hs]
  rfl

/-- **C152**: two passes in place, with any closures: the second one is called on the results of the
first, except that the lanes of the last vector which hold no elements have its own default. -/
theorem C152_two (fuel fuel' : Nat) (s s' : σ) (t t' : τ) (f : FnMut σ (Vector α w) (Vector α w))
    (g : FnMut τ (Vector α w) (Vector α w)) (us vs : List (Vector α w)) (hw : 0 < w)
    (hlen : data.length + w < c.usize) (hfuel : data.length / w < fuel)
    (hfuel' : data.length / w < fuel')
    (hf : callAll f s (calls w d data) = ok (us, s'))
    (hg : callAll g t (repad ((w - data.length % w) % w) d' us) = ok (vs, t')) :
    simdForEach c fuel' t g (simdIter (inPlace c fuel data d s f) d') =
      (ok t', ⟨data.length, ⟨unpad ((w - data.length % w) % w) vs⟩, d'⟩) := by
  have hp : (w - data.length % w) % w < w := Nat.mod_lt _ hw
  unfold inPlace
  rw [C10_for_each_any_closure c fuel data d s s' f us hw hlen hfuel hf]
  have hl : (unpad ((w - data.length % w) % w) us).length = data.length := by
    have h1 := callAll_length f s _ hf
    have h2 := Nat.div_add_mod' data.length w
    unfold calls at h1
    rw [List.length_append, fullWindows_length] at h1
    by_cases h0 : data.length % w = 0
    · rw [if_pos h0, List.length_nil] at h1
      rw [h0, Nat.sub_zero, Nat.mod_self, unpad_zero, lanes_length, h1, Nat.add_zero]
      omega
    · rw [if_neg h0, List.length_singleton] at h1
      have h3 := Nat.mod_lt data.length hw
      rcases List.eq_nil_or_concat us with rfl | ⟨l, u, rfl⟩
      · simp at h1
      · rw [List.length_concat] at h1
        rw [List.concat_eq_append, unpad_concat, List.length_append, lanes_length, List.length_drop,
          Vector.length_toList, Nat.mod_eq_of_lt (show w - data.length % w < w by omega),
          show l.length = data.length / w by omega]
        omega
  simp only
  rw [C10_for_each_any_closure c fuel' _ d' t t' g vs hw (by rw [hl]; exact hlen) (by rw [hl]; exact hfuel')
    (by rw [calls_unpad hw d' hp]; exact hg), hl]

/-- **C152**, partial: if the first closure returns the default of the second pass in the lanes of the
last vector which hold no elements, or if there are none, two passes leave what one pass with both
closures leaves. Missing: other closures (see `C152_false`), except lane-wise second ones
(`C152_lanewise`). -/
theorem C152_fused_partial (fuel fuel' : Nat) (F G : Vector α w → Vector α w) (hw : 0 < w)
    (hlen : data.length + w < c.usize) (hfuel : data.length / w < fuel)
    (hfuel' : data.length / w < fuel')
    (hpad : PadsLike ((w - data.length % w) % w) d' ((calls w d data).map F)) :
    inPlace c fuel' (inPlace c fuel data d () (pureFn F)) d' () (pureFn G) =
      inPlace c fuel data d () (pureFn (G ∘ F)) := by
  refine (congrArg (fun r => r.2.data.elems) (C152_two data d d' fuel fuel' () () () () (pureFn F)
    (pureFn G) _ _ hw hlen hfuel hfuel' (callAll_pure F _) (callAll_pure G _))).trans
    (Eq.trans ?_ (congrArg (fun r => r.2.data.elems) (C10_for_each_any_closure c fuel data d () () _ _
      hw hlen hfuel (callAll_pure (G ∘ F) _))).symm)
  simp only
  rw [(repad_eq_iff _ _ _).2 hpad, List.map_map]

theorem inPlace_two (fuel fuel' : Nat) (F G : Vector α w → Vector α w) (hw : 0 < w)
    (hlen : data.length + w < c.usize) (hfuel : data.length / w < fuel)
    (hfuel' : data.length / w < fuel') :
    inPlace c fuel' (inPlace c fuel data d () (pureFn F)) d' () (pureFn G) =
      unpad ((w - data.length % w) % w)
        ((repad ((w - data.length % w) % w) d' ((calls w d data).map F)).map G) :=
  congrArg (fun r => r.2.data.elems) (C152_two data d d' fuel fuel' () () () () (pureFn F)
    (pureFn G) _ _ hw hlen hfuel hfuel' (callAll_pure F _) (callAll_pure G _))

theorem inPlace_one (fuel : Nat) (F : Vector α w → Vector α w) (hw : 0 < w)
    (hlen : data.length + w < c.usize) (hfuel : data.length / w < fuel) :
    inPlace c fuel data d () (pureFn F) =
      unpad ((w - data.length % w) % w) ((calls w d data).map F) :=
  congrArg (fun r => r.2.data.elems) (C10_for_each_any_closure c fuel data d () () _ _
      hw hlen hfuel (callAll_pure F _))

/-- **C152**: exactly then two passes agree with one for every second closure. -/
theorem C152_iff (fuel fuel' : Nat) (F : Vector α w → Vector α w) (hw : 0 < w)
    (hlen : data.length + w < c.usize) (hfuel : data.length / w < fuel)
    (hfuel' : data.length / w < fuel') :
    (∀ G : Vector α w → Vector α w,
      inPlace c fuel' (inPlace c fuel data d () (pureFn F)) d' () (pureFn G) =
        inPlace c fuel data d () (pureFn (G ∘ F))) ↔
    PadsLike ((w - data.length % w) % w) d' ((calls w d data).map F) := by
  refine ⟨fun h => ?_, fun h G => C152_fused_partial data d d' fuel fuel' F G hw hlen hfuel hfuel' h⟩
  intro v hv j hj hp
  have h1 := h fun v => Vector.replicate w v[j]
  rw [inPlace_two data d d' fuel fuel' F _ hw hlen hfuel hfuel', inPlace_one data d fuel _ hw hlen hfuel,
    ← List.map_map] at h1
  have hpw : (w - data.length % w) % w < w := Nat.mod_lt _ hw
  generalize (w - data.length % w) % w = p at h1 hp hpw
  generalize (calls w d data).map F = us at h1 hv
  rcases List.eq_nil_or_concat us with rfl | ⟨l, u, rfl⟩
  · simp at hv
  · simp only [List.concat_eq_append, List.getLast?_append, List.getLast?_singleton, Option.some_or,
      Option.mem_def, Option.some.injEq] at hv
    subst hv
    simp only [repad, List.concat_eq_append, List.dropLast_concat, List.getLast?_append,
      List.getLast?_singleton, Option.some_or, Option.toList_some, List.map_cons, List.map_nil,
      List.map_append, unpad_concat, List.append_cancel_left_eq, Vector.getElem_ofFn, if_pos hp] at h1
    have h2 := congrArg (fun l => l[0]?) h1
    simp only [List.getElem?_drop, Nat.add_zero] at h2
    rw [List.getElem?_eq_getElem (by simpa using hpw), List.getElem?_eq_getElem (by simpa using hpw)] at h2
    simpa using h2.symm

/-- **C152**: a lane-wise second closure always agrees, whatever the first one does. -/
theorem C152_lanewise (fuel fuel' : Nat) (F : Vector α w → Vector α w) (k : α → α) (hw : 0 < w)
    (hlen : data.length + w < c.usize) (hfuel : data.length / w < fuel)
    (hfuel' : data.length / w < fuel') :
    inPlace c fuel' (inPlace c fuel data d () (pureFn F)) d' () (pureFn (Vector.map k)) =
      inPlace c fuel data d () (pureFn (Vector.map k ∘ F)) := by
  refine (congrArg (fun r => r.2.data.elems) (C152_two data d d' fuel fuel' () () () () (pureFn F)
    (pureFn (Vector.map k)) _ _ hw hlen hfuel hfuel' (callAll_pure F _) (callAll_pure _ _))).trans
    (Eq.trans ?_ (congrArg (fun r => r.2.data.elems) (C10_for_each_any_closure c fuel data d () () _ _
      hw hlen hfuel (callAll_pure (Vector.map k ∘ F) _))).symm)
  simp only
  rw [← List.map_map]
  exact unpad_repad_map k _ d' _

omit [Packable α] in
/-- In particular whole vectors. -/
theorem C152_whole (F : Vector α w → Vector α w) (h : data.length % w = 0) :
    PadsLike ((w - data.length % w) % w) d' ((calls w d data).map F) := by
  intro v _ j _ hj
  rw [h] at hj
  simp at hj

/-- **C152** is false: add one, then reverse the lanes of each vector, on five elements in vectors of
four. In two passes the last lane receives the default 0, in one pass 0 + 1. -/
theorem C152_false :
    inPlace release64 9 (inPlace release64 9 [1#8, 2, 3, 4, 5] (Packed.splat 0 : Vector _ 4) ()
      (pureFn (Vector.map (· + 1)))) (Packed.splat 0 : Vector _ 4) () (pureFn Vector.reverse) =
      [5#8, 4, 3, 2, 0] ∧
    inPlace release64 9 [1#8, 2, 3, 4, 5] (Packed.splat 0 : Vector _ 4) ()
      (pureFn (Vector.reverse ∘ Vector.map (· + 1))) = [5#8, 4, 3, 2, 1] := by
  decide +kernel

/-- Doubling keeps the default 0, so the hypothesis of `C152_fused_partial` holds; the second pass
reverses the vectors. -/
example : inPlace release64 9 (inPlace release64 9 [1#8, 2, 3, 4, 5] (Packed.splat 0 : Vector _ 4) ()
      (pureFn (Vector.map (· * 2)))) (Packed.splat 0 : Vector _ 4) () (pureFn Vector.reverse) =
    inPlace release64 9 [1#8, 2, 3, 4, 5] (Packed.splat 0 : Vector _ 4) ()
      (pureFn (Vector.reverse ∘ Vector.map (· * 2))) :=
  C152_fused_partial _ _ _ 9 9 _ _ (by decide) (by decide) (by decide) (by decide)
    ((repad_eq_iff _ _ _).1 (by decide +kernel))

end Faster
