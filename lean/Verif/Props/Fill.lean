import Verif.Props.Collect
import Verif.Lemmas.FillAll
/-
C07, C08, C09, C31, C32: filling caller-provided buffers and new `Vec`s.
-/
namespace Faster
open Res SIMDSized SIMDIterable SIMDIterator

theorem pureFn_apply {β γ : Type} (g : β → γ) (u : Unit) (v : β) :
    pureFn g u v = ok (g v, u) := rfl

theorem mapRun_pure {β γ : Type} (g : β → γ) (vs : List β) :
    mapRun (pureFn g) () vs = (vs.map g, ok ()) := by
  induction vs with
  | nil => rfl
  | cons v vs ih => simp [mapRun, pureFn] at ih ⊢; simp [ih]

/-! ### C07 -/

/-- **C07** (general). With a buffer for the full windows and the unpadded part of
the last vector, `scalar_fill` writes exactly what `scalar_collect` (C05) would
return, from the start of the buffer, and leaves the rest unchanged. Arbitrary
closure, which may panic and change the lane size. -/
theorem C07_fill_any_closure {α β σ : Type} [Packable α] [Packable β] {w w' : Nat} (c : Cfg)
    (fuel : Nat) (data : List α) (d : Vector α w) (st : σ)
    (f : FnMut σ (Vector α w) (Vector β w')) (buf : List β)
    (hw : 0 < w) (hw' : 0 < w') (hs : 0 < Packable.size β)
    (hsize : w * Packable.size α = w' * Packable.size β)
    (hlen : data.length + w < c.usize) (hlen' : (data.length / w + 1) * w' < c.usize)
    (hvec : w * Packable.size α < c.usize) (hfuel : data.length / w < fuel)
    (hbuf : data.length / w * w' + (if data.length % w = 0 then 0 else
      w' - (w - data.length % w) * Packable.size α / Packable.size β) ≤ buf.length) :
    scalarFill c fuel (simdMap (simdIter data d) st f) buf = (do
      let (outs, st') ← callAll f st (calls w d data)
      let out := unpad ((w - data.length % w) % w * Packable.size α / Packable.size β) outs
      ok (⟨⟨data.length, ⟨data⟩, d⟩, st', f⟩, out ++ buf.drop out.length)) := by
  have he := simdIter_emits (represents_slice (w := w) c data) d hw hlen
  have hl := fullWindows_length w data
  rw [simdIter, scalarFill_map f he hw' hs buf (by rw [hl]; omega) _ (by rw [hl]; exact hlen') fuel
    (by omega) st, withTail_tailOf, padOf_tailOf hw]
  · simp only [splice_zero]
  · intro p n hpn
    obtain ⟨hn, hne, hnw, -⟩ := tailOf_some hw hpn
    rw [if_neg hne, ← hn] at hbuf
    have h1 : n * Packable.size α ≤ w * Packable.size α := Nat.mul_le_mul_right _ (by omega)
    have h2 : n * Packable.size α / Packable.size β ≤ w' := by
      rw [hsize] at h1
      exact Nat.div_le_of_le_mul (by rw [Nat.mul_comm (Packable.size β)]; exact h1)
    refine ⟨by omega, h2, ?_⟩
    rw [hl]; omega

/-- **C07.** Lane-wise closure: the buffer starts with the scalar map, the rest
is unchanged. -/
theorem C07_fill {α β : Type} [Packable α] [Packable β] {w : Nat} (c : Cfg)
    (fuel : Nat) (data : List α) (d : Vector α w) (g : α → β) (buf : List β)
    (hw : 0 < w) (hs : 0 < Packable.size β) (hsize : Packable.size α = Packable.size β)
    (hlen : data.length + w < c.usize)
    (hvec : w * Packable.size α < c.usize) (hfuel : data.length / w < fuel)
    (hbuf : data.length ≤ buf.length) :
    scalarFill c fuel (simdMap (simdIter data d) () (pureFn (Vector.map g))) buf =
      ok (⟨⟨data.length, ⟨data⟩, d⟩, (), pureFn (Vector.map g)⟩,
        data.map g ++ buf.drop data.length) := by
  have hdm := Nat.div_mul_le_self data.length w
  have hd := Nat.div_add_mod data.length w
  have hm := Nat.mod_lt data.length hw
  rw [C07_fill_any_closure c fuel data d () _ buf hw hw hs (by rw [hsize]) hlen
    (by rw [Nat.succ_mul]; omega) hvec hfuel, callAll_pure]
  · simp only [ok_bind]
    rw [← hsize, Nat.mul_div_cancel _ (by omega), unpad_map, unpad_calls hw]
    simp
  · rw [← hsize, Nat.mul_div_cancel _ (by omega)]
    rw [Nat.mul_comm] at hd
    split <;> omega

example : (do
    let (_, buf) ← scalarFill release64 3 (simdMap (simdIter (w := 2) [1#16, 2, 3, 4, 5]
      #v[0#16, 0]) () (pureFn (Vector.map (· + 1#16)))) [90#16, 91, 92, 93, 94, 95, 96]
    ok buf) = ok [2#16, 3, 4, 5, 6, 95, 96] := by
  rw [C07_fill release64 3 _ _ _ _ (by decide) (by decide) rfl (by decide) (by decide) (by decide)
    (by decide)]
  rfl

/-! ### C08 -/

/-- **C08 is false.** In a release build, `scalar_fill` into a buffer which is
shorter than the collection (of at least one vector) always writes out of
bounds. -/
theorem C08_fill_out_of_bounds {α β : Type} [Packable α] [Packable β] {w : Nat} (c : Cfg)
    (fuel : Nat) (data : List α) (d : Vector α w) (g : α → β) (buf : List β)
    (hc : c.debug = false)
    (hw : 0 < w) (hs : 0 < Packable.size β) (hsize : Packable.size α = Packable.size β)
    (hlen : data.length + w < c.usize)
    (hvec : w * Packable.size α < c.usize) (hfuel : data.length / w < fuel)
    (hdata : w ≤ data.length) (hbuf : buf.length < data.length) :
    scalarFill c fuel (simdMap (simdIter data d) () (pureFn (Vector.map g))) buf = ub := by
  have hdm := Nat.div_mul_le_self data.length w
  have hd := Nat.div_add_mod data.length w
  have hm := Nat.mod_lt data.length hw
  have hq : 0 < data.length / w := Nat.div_pos hdata hw
  rw [Nat.mul_comm] at hd
  have he := simdIter_emits (represents_slice (w := w) c data) d hw hlen
  have hl := fullWindows_length w data
  have hmap := simdMap_emits (pureFn (Vector.map g)) he hs (by
    intro p n hpn
    obtain ⟨hn, hne, hnw, -⟩ := tailOf_some hw hpn
    have h1 : n * Packable.size α ≤ w * Packable.size α := Nat.mul_le_mul_right _ (by omega)
    omega) ()
  rw [mapRun_pure] at hmap
  simp only [ok_bind] at hmap
  have hne : (fullWindows w data).map (Vector.map g) ≠ [] := by
    intro e
    have := congrArg List.length e
    simp [hl] at this; omega
  cases ht : tailOf d data with
  | none =>
    rw [ht] at hmap
    have h0 := tailOf_none ht
    rw [simdMap, simdIter, scalarFill_short hmap fuel buf (by simp [hl]; omega) hw (by simp)
      (by simp [hl]; omega) (by simp [hl]; omega) (by omega), if_neg hne]
    simp [badAccess, hc]
  | some q =>
    obtain ⟨p, n⟩ := q
    rw [ht] at hmap
    obtain ⟨hn, hne2, hnw, -⟩ := tailOf_some hw ht
    simp only [mapTail, pureFn_apply, ok_bind, ← hsize] at hmap
    rw [Nat.mul_div_cancel _ (by omega)] at hmap
    rw [simdMap, simdIter, scalarFill_short hmap fuel buf (by simp [hl]; omega) hw (by simp; omega)
      (by simp [hl]; omega) (by simp [hl]; omega) (by omega), if_neg hne]
    simp [badAccess, hc]

/-- Concrete instance: eight elements into a buffer of seven. -/
theorem C08_false : ∃ (data buf : List (BitVec 16)),
    scalarFill release64 9 (simdMap (simdIter (w := 4) data (Vector.replicate 4 0#16)) ()
      (pureFn (Vector.map (· + 1#16)))) buf = ub :=
  ⟨[1, 2, 3, 4, 5, 6, 7, 8], [0, 0, 0, 0, 0, 0, 0],
    C08_fill_out_of_bounds release64 9 _ _ _ _ rfl (by decide) (by decide) rfl (by decide)
      (by decide) (by decide) (by decide) (by decide)⟩

/-- **C08**, the part which holds: in debug builds no buffer whatsoever is
overrun — a too short one panics — and in release builds a collection shorter
than a vector panics too. (Buffers which are long enough: C07.) Missing: release
builds with at least one full vector, where the property is false
(`C08_fill_out_of_bounds`). -/
theorem C08_fill_short_panics_partial {α β : Type} [Packable α] [Packable β] {w : Nat} (c : Cfg)
    (fuel : Nat) (data : List α) (d : Vector α w) (g : α → β) (buf : List β)
    (hw : 0 < w) (hs : 0 < Packable.size β) (hsize : Packable.size α = Packable.size β)
    (hlen : data.length + w < c.usize)
    (hvec : w * Packable.size α < c.usize) (hfuel : data.length / w < fuel)
    (hbuf : buf.length < data.length)
    (hc : c.debug = true ∨ data.length < w) :
    scalarFill c fuel (simdMap (simdIter data d) () (pureFn (Vector.map g))) buf = panic := by
  have hdm := Nat.div_mul_le_self data.length w
  have hd := Nat.div_add_mod data.length w
  have hm := Nat.mod_lt data.length hw
  rw [Nat.mul_comm] at hd
  have he := simdIter_emits (represents_slice (w := w) c data) d hw hlen
  have hl := fullWindows_length w data
  have hmap := simdMap_emits (pureFn (Vector.map g)) he hs (by
    intro p n hpn
    obtain ⟨hn, hne, hnw, -⟩ := tailOf_some hw hpn
    have h1 : n * Packable.size α ≤ w * Packable.size α := Nat.mul_le_mul_right _ (by omega)
    omega) ()
  rw [mapRun_pure] at hmap
  simp only [ok_bind] at hmap
  have hor : (if (fullWindows w data).map (Vector.map g) = [] then panic else badAccess c :
      Res (SIMDMap (SIMDIter (Slice α w) α w) Unit α w β w × List β)) = panic := by
    rcases hc with h | h
    · simp [badAccess, h]
    · simp [fullWindows_short h]
  cases ht : tailOf d data with
  | none =>
    rw [ht] at hmap
    have h0 := tailOf_none ht
    rw [simdMap, simdIter, scalarFill_short hmap fuel buf (by simp [hl]; omega) hw (by simp)
      (by simp [hl]; omega) (by simp [hl]; omega) (by omega)]
    exact hor
  | some q =>
    obtain ⟨p, n⟩ := q
    rw [ht] at hmap
    obtain ⟨hn, hne2, hnw, -⟩ := tailOf_some hw ht
    simp only [mapTail, pureFn_apply, ok_bind, ← hsize] at hmap
    rw [Nat.mul_div_cancel _ (by omega)] at hmap
    rw [simdMap, simdIter, scalarFill_short hmap fuel buf (by simp [hl]; omega) hw (by simp; omega)
      (by simp [hl]; omega) (by simp [hl]; omega) (by omega)]
    exact hor

example : scalarFill debug64 9 (simdMap (simdIter (w := 4) [1#16, 2, 3, 4, 5] (Vector.replicate 4 0))
    () (pureFn (Vector.map (· + 1#16)))) [0#16, 0, 0, 0] = panic :=
  C08_fill_short_panics_partial debug64 9 _ _ _ _ (by decide) (by decide) rfl (by decide)
    (by decide) (by decide) (by decide) (Or.inl rfl)

/-! ### C09 -/

theorem drop_eq_windows_leftover {α : Type} {w : Nat} (hw : 0 < w) (l : List α)
    (h : l.length % w = 0) : lanes (fullWindows w l) = l := by
  have := lanes_fullWindows hw l
  have h2 : leftover w l = [] := List.eq_nil_of_length_eq_zero (by rw [leftover_length, h])
  simpa [h2] using this

/-- **C09**, exact behaviour of `scalar_collect` on a slice iterator at any
position `p` (any history of `next`, `end`, `advance` leads to some `p`). -/
theorem C09_collect_at {α : Type} [Packable α] {w : Nat} (c : Cfg) (fuel : Nat)
    (data : List α) (d : Vector α w) (p : Nat) (hw : 0 < w)
    (hlen : data.length + w < c.usize) (hp : p + w < c.usize)
    (hfuel : data.length / w < fuel) :
    scalarCollect c fuel (⟨p, ⟨data⟩, d⟩ : SIMDIter (Slice α w) α w) =
      if (data.length - p) % w = 0 then
        -- no partial vector: the result is filled up with uninitialised elements
        ok (⟨p + (data.length - p), ⟨data⟩, d⟩, (data.drop p).map some ++
          List.replicate (data.length / w * w - (data.length - p)) none)
      else if 0 < p ∧ data.length ≤ w then
        if c.debug then panic else ub
      else
        ok (⟨data.length, ⟨data⟩, d⟩, (data.drop p).map some) := by
  have hr := represents_slice (w := w) c data
  have hruns := simdIter_runs hr d hw hlen p hp
  have hl := fullWindows_length w (data.drop p)
  have hdl : (data.drop p).length = data.length - p := by simp
  rw [hdl] at hl
  have hdm := Nat.div_mul_le_self data.length w
  have hd := Nat.div_add_mod (data.length - p) w
  have hm := Nat.mod_lt (data.length - p) hw
  have hle : (data.length - p) / w ≤ data.length / w := Nat.div_le_div_right (by omega)
  have hle2 := Nat.mul_le_mul_right w hle
  rw [Nat.mul_comm] at hd
  have hend := simdIter_end_exact hr (p + (data.length - p) / w * w) d hlen
  have hem : Emits c (⟨p, ⟨data⟩, d⟩ : SIMDIter (Slice α w) α w) (fullWindows w (data.drop p)) _ :=
    ⟨_, hruns, rfl⟩
  rw [ok_bind, hend] at hem
  by_cases h0 : (data.length - p) % w = 0
  · rw [if_pos h0]
    have e : (data.length - p) / w * w = data.length - p := by omega
    rw [if_pos (by omega)] at hem
    rw [scalarCollect_emits_none hem fuel (by omega) hw (simdIter_len c hw data d _) (by omega)
      (by rw [Nat.succ_mul]; omega) (simdIter_len c hw data d _) (Nat.le_refl _), e,
      drop_eq_windows_leftover hw _ (by rw [hdl]; exact h0), hl, e,
      List.take_append, List.take_replicate, List.take_of_length_le (by simp; omega)]
    congr 4
    rw [List.length_map, hdl, Nat.succ_mul]
    omega
  · rw [if_neg h0]
    rw [if_neg (by omega), if_neg (by omega)] at hem
    by_cases h1 : 0 < p ∧ data.length ≤ w
    · rw [if_pos h1]
      have hq : (data.length - p) / w = 0 := Nat.div_eq_of_lt (by omega)
      rw [if_pos (by omega)] at hem
      rw [scalarCollect_emits hem fuel (by omega) hw (simdIter_len c hw data d _) (by omega)
        (by rw [Nat.succ_mul]; omega) (by unfold badAccess; split <;> simp)
        (by unfold badAccess; split <;> simp)]
      rw [badAccess_bind, badAccess]
    · rw [if_neg h1]
      have h2 : ¬ (0 < p + (data.length - p) / w * w ∧ data.length ≤ w) := by
        intro h
        have hp0 : p = 0 := by omega
        have hne : data.length ≠ w := by
          intro e; rw [hp0, e] at h0; simp at h0
        have hq : (data.length - p) / w = 0 := Nat.div_eq_of_lt (by omega)
        rw [hq] at h; omega
      rw [if_neg h2] at hem
      rw [scalarCollect_emits hem fuel (by omega) hw (simdIter_len c hw data d _) (by omega)
        (by rw [Nat.succ_mul]; omega) (by simp) (by simp)]
      simp only [ok_bind, Option.map_some, Option.getD_some]
      have hlo := leftover_length w (data.drop p)
      rw [hdl] at hlo
      have e1 : data.drop (p + (data.length - p) / w * w) = leftover w (data.drop p) := by
        rw [leftover, List.drop_drop, hdl]
      have e2 : w - (data.length - (p + (data.length - p) / w * w)) =
          w - (leftover w (data.drop p)).length := by omega
      rw [e1, e2, padFront_drop _ _ (by omega), lanes_fullWindows hw]

/-- **C09 is false.** After one `next` on a slice of two vectors,
`scalar_collect` returns a `Vec` with uninitialised elements. -/
theorem C09_false : ∃ (data : List (BitVec 32)) (it' it'' : SIMDIter (Slice (BitVec 32) 2) (BitVec 32) 2)
    (v : Vector (BitVec 32) 2) (out : List (Option (BitVec 32))),
    SIMDIterable.next debug64 (simdIter (w := 2) data #v[0#32, 0]) = ok (some v, it') ∧
    scalarCollect debug64 9 it' = ok (it'', out) ∧ none ∈ out :=
  ⟨[1, 2, 3, 4], ⟨2, ⟨[1, 2, 3, 4]⟩, #v[0, 0]⟩, ⟨4, ⟨[1, 2, 3, 4]⟩, #v[0, 0]⟩, #v[1, 2],
    [some 3, some 4, none, none], by decide +kernel, by
      rw [C09_collect_at debug64 9 _ _ 2 (by decide) (by decide) (by decide) (by decide)]
      rfl, by decide⟩

/-- **C09**, the part which holds: on a fresh iterator no element is
uninitialised and the collection is returned unchanged; and at position `p`
whenever a partial vector remains (and no bad access happens). Missing: partly
consumed iterators without a partial vector, where `C09_collect_at` gives the
number of uninitialised elements exactly. -/
theorem C09_collect_initialised_partial {α : Type} [Packable α] {w : Nat} (c : Cfg) (fuel : Nat)
    (data : List α) (d : Vector α w) (p : Nat) (hw : 0 < w)
    (hlen : data.length + w < c.usize) (hp : p + w < c.usize)
    (hfuel : data.length / w < fuel)
    (h : p = 0 ∨ ((data.length - p) % w ≠ 0 ∧ w < data.length)) :
    ∃ it', scalarCollect c fuel (⟨p, ⟨data⟩, d⟩ : SIMDIter (Slice α w) α w) =
      ok (it', (data.drop p).map some) := by
  rw [C09_collect_at c fuel data d p hw hlen hp hfuel]
  have hdm := Nat.div_mul_le_self data.length w
  split
  · rcases h with rfl | h
    · refine ⟨⟨0 + (data.length - 0), ⟨data⟩, d⟩, ?_⟩
      rw [show data.length / w * w - (data.length - 0) = 0 by omega]
      simp only [List.replicate_zero, List.append_nil]
    · exact absurd (by assumption) h.1
  · rw [if_neg (by omega)]
    exact ⟨_, rfl⟩

example : ∃ it', scalarCollect release64 9
    (⟨1, ⟨[1#8, 2, 3, 4, 5, 6]⟩, #v[0, 0, 0]⟩ : SIMDIter (Slice (BitVec 8) 3) (BitVec 8) 3) =
      ok (it', [some 2, some 3, some 4, some 5, some 6]) :=
  C09_collect_initialised_partial release64 9 _ _ 1 (by decide) (by decide) (by decide) (by decide)
    (Or.inr (by decide))

/-! ### C32, C31 -/

/-- **C32.** `scalar_fill_all` stores all lanes of every output vector, the
partial one included, consecutively from the start of the buffer, and leaves the
rest of the buffer unchanged. -/
theorem C32_fill_all {α β σ : Type} [Packable α] [Packable β] {w w' : Nat} (c : Cfg)
    (fuel : Nat) (data : List α) (d : Vector α w) (st : σ)
    (f : FnMut σ (Vector α w) (Vector β w')) (buf : List β)
    (hw : 0 < w) (hs : 0 < Packable.size β)
    (hlen : data.length + w < c.usize)
    (hvec : w * Packable.size α < c.usize) (hfuel : data.length / w < fuel)
    (hbuf : (calls w d data).length * w' ≤ buf.length) (hbufu : buf.length < c.usize) :
    scalarFillAll c fuel (simdMap (simdIter data d) st f) buf = (do
      let (outs, st') ← callAll f st (calls w d data)
      ok (⟨⟨data.length, ⟨data⟩, d⟩, st', f⟩, lanes outs ++ buf.drop (lanes outs).length)) := by
  have he := simdIter_emits (represents_slice (w := w) c data) d hw hlen
  have hl := fullWindows_length w data
  have hmap := simdMap_emits f he hs (by
    intro p n hpn
    obtain ⟨hn, hne, hnw, -⟩ := tailOf_some hw hpn
    have h1 : n * Packable.size α ≤ w * Packable.size α := Nat.mul_le_mul_right _ (by omega)
    omega) st
  have hle := mapRun_length_le f st (fullWindows w data)
  have hmul : (mapRun f st (fullWindows w data)).1.length * w' ≤ data.length / w * w' := by
    rw [← hl]; exact Nat.mul_le_mul_right w' hle
  have hb1 : data.length / w * w' ≤ (calls w d data).length * w' := by
    apply Nat.mul_le_mul_right
    rw [calls, List.length_append, hl]; omega
  rw [scalarFillAll, simdMap, simdIter, scalarFillAll_emits id hmap fuel buf (by omega) (by omega) (by omega)]
  · rw [← withTail_tailOf, withTail, callAll_append, callAll_mapRun f st (fullWindows w data)]
    cases ht : tailOf d data with
    | none =>
      simp [mapTail, callAll, withTail, splice_zero]
    | some q =>
      obtain ⟨p, n⟩ := q
      simp [mapTail, callAll, withTail, splice_zero]
  · intro p n it' e
    cases ht : tailOf d data with
    | none =>
      rw [ht] at e
      cases h2 : (mapRun f st (fullWindows w data)).2 <;> simp [h2, mapTail] at e
    | some q =>
      rw [← withTail_tailOf, withTail, ht] at hbuf
      simp only [Option.toList_some, List.map_cons, List.map_nil, List.length_append, hl,
        List.length_cons, List.length_nil, Nat.succ_mul, Nat.zero_add] at hbuf
      omega

example : (do
    let (_, buf) ← scalarFillAll release64 3 (simdMap (simdIter (w := 2) [1#16, 2, 3]
      #v[50#16, 60]) () (pureFn (Vector.map (· + 1#16)))) [90#16, 91, 92, 93, 94]
    ok buf) = ok [2#16, 3, 51, 4, 94] := by decide +kernel

/-- **C31 is false**: `scalar_collect_all` on any non-empty collection, with
vectors of at least two lanes, writes outside the slice it allocated (in debug
builds: panics). -/
theorem C31_collect_all_always_bad {α : Type} {w : Nat} (c : Cfg)
    (fuel : Nat) (data : List α) (d : Vector α w)
    (hw : 2 ≤ w) (hne : data ≠ []) (hlen : data.length + 2 * w < c.usize)
    (hfuel : data.length / w < fuel) :
    scalarCollectAll c fuel (simdIter data d) = if c.debug then panic else ub := by
  have hw0 : 0 < w := by omega
  have he := simdIter_emits (represents_slice (w := w) c data) d hw0 (by omega)
  have hl := fullWindows_length w data
  have hdm := Nat.div_mul_le_self data.length w
  have hpos : 0 < data.length := List.length_pos_iff.mpr hne
  have e1 : (data.length / w + 1) * w = data.length / w * w + w := Nat.succ_mul _ _
  have hle : data.length / w ≤ data.length / w * w := Nat.le_mul_of_pos_right _ hw0
  simp only [scalarCollectAll, simdIter]
  rw [simdIter_len c hw0]
  simp only [ok_bind]
  rw [uadd_ok (by omega)]
  simp only [ok_bind]
  rw [umul_ok (by omega)]
  simp only [ok_bind, RVec.setLen, RVec.withCapacity, List.length_replicate]
  rw [if_pos (by omega)]
  simp only [ok_bind, RVec.slice]
  have hlen2 : (List.take (data.length / w)
      (List.replicate ((data.length / w + 1) * w) (none : Option α))).length = data.length / w := by
    simp; omega
  rw [scalarFillAll_short some he fuel _ (by omega) _ (by rw [hl]; omega) (by omega), badAccess_bind,
    badAccess]
  rw [hlen2, withTail_tailOf, calls, List.length_append, hl]
  by_cases hq : data.length / w = 0
  · have hlt : data.length < w := by
      rcases Nat.lt_or_ge data.length w with h | h
      · exact h
      · have := Nat.div_pos h hw0; omega
    rw [hq, if_neg (by rw [Nat.mod_eq_of_lt hlt]; omega)]
    simp; omega
  · have h2 : data.length / w * 2 ≤ data.length / w * w := Nat.mul_le_mul_left _ hw
    rw [Nat.add_mul]
    omega

theorem C31_false : ∃ data : List (BitVec 32),
    scalarCollectAll release64 9 (simdIter (w := 4) data (Vector.replicate 4 0)) = ub :=
  ⟨[1, 2, 3, 4, 5], C31_collect_all_always_bad release64 9 _ _ (by decide) (by decide) (by decide)
    (by decide)⟩

/-- **C31**, the part which holds: the empty collection. Missing: every
non-empty collection (see `C31_collect_all_always_bad`). -/
theorem C31_collect_all_empty_partial {α : Type} {w : Nat} (c : Cfg)
    (fuel : Nat) (d : Vector α w) (hw : 0 < w) (hlen : w < c.usize) (hfuel : 0 < fuel) :
    scalarCollectAll c fuel (simdIter ([] : List α) d) = ok (⟨0, ⟨[]⟩, d⟩, []) := by
  have he := simdIter_emits (represents_slice (w := w) c ([] : List α)) d hw (by simpa using hlen)
  simp only [scalarCollectAll, simdIter]
  rw [simdIter_len c hw]
  simp only [ok_bind, List.length_nil, Nat.zero_div]
  rw [uadd_ok (by omega)]
  simp only [ok_bind]
  rw [umul_ok (by omega)]
  simp only [ok_bind, RVec.setLen, RVec.withCapacity, List.length_replicate]
  rw [if_pos (by omega)]
  simp only [ok_bind, RVec.slice]
  rw [fullWindows_short (by simpa using hw)] at he
  simp only [tailOf, List.length_nil, Nat.zero_mod, if_true] at he
  rw [scalarFillAll_emits some he fuel _ (by simpa using hfuel) (by simp) (by simp; omega) (by simp)]
  simp [withTail, RVec.putSlice, splice_nil]

example : scalarCollectAll debug64 1 (simdIter (w := 4) ([] : List (BitVec 32)) (Vector.replicate 4 0))
    = ok (⟨0, ⟨[]⟩, Vector.replicate 4 0⟩, []) :=
  C31_collect_all_empty_partial debug64 1 _ (by decide) (by decide) (by decide)

end Faster
