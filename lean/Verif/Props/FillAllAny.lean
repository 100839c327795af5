import Verif.Props.LenAt
import Verif.Props.UnwindMore
/-
C31, C32: what `scalar_fill_all` and `scalar_collect_all` of maps do, exactly, for every buffer, every
closure, all sizes of vectors and every position. Slices, strides and zips.
-/
namespace Faster
open Res SIMDSized SIMDIterable SIMDIterator

section
variable {I β σ δ : Type} {w : Nat} [SIMDSized I] [SIMDIterator I β w]

/-- The outcome of `end` of a map: the closure is called on the partial vector, if there is one. -/
def endOf (f : FnMut σ δ (Vector β w)) (n : Nat) (mk : σ → I) (st : σ) :
    Option δ → Res (Option (Vector β w × Nat) × I)
  | none => ok (none, mk st)
  | some p => f st p >>= fun q => ok (some (q.1, n), mk q.2)

/-- `scalar_fill_all` of anything which behaves like a map. -/
theorem fillAll_outcome {κ : Type} {c : Cfg} (inj : β → κ) (f : FnMut σ δ (Vector β w)) (st : σ)
    (vs : List δ) (t : Option δ) (n : Nat) (mk : σ → I) {m : I}
    (h : Emits c m (mapRun f st vs).1 ((mapRun f st vs).2 >>= fun st' => endOf f n mk st' t))
    (fuel : Nat) (buf : List κ) (hf : vs.length < fuel) (hw : 0 < w) (hu : buf.length + w < c.usize) :
    scalarFillAllCells c inj fuel m buf =
      if (vs ++ t.toList).length * w ≤ buf.length then
        callAll f st (vs ++ t.toList) >>= fun q => ok (mk q.2, splice buf 0 ((lanes q.1).map inj))
      else callAll f st ((vs ++ t.toList).take (buf.length / w + 1)) >>= fun _ => badAccess c := by
  have hle := mapRun_length_le f st vs
  have hmul : (mapRun f st vs).1.length * w ≤ vs.length * w := Nat.mul_le_mul_right w hle
  by_cases hfull : vs.length * w ≤ buf.length
  · -- the results of the full vectors fit
    have hd : vs.length ≤ buf.length / w := (Nat.le_div_iff_mul_le hw).mpr hfull
    rcases t with _ | p
    · simp only [Option.toList_none, List.append_nil, endOf] at h ⊢
      rw [if_pos hfull, scalarFillAll_emits inj h fuel buf (by omega) (by omega) (by omega) (by
        intro p n it' e
        cases hr : (mapRun f st vs).2 <;> simp [hr] at e), callAll_mapRun]
      simp [withTail]
    · simp only [Option.toList_some, endOf, List.length_append, List.length_cons, List.length_nil,
        Nat.zero_add, Nat.succ_mul] at h ⊢
      have htake : (vs ++ [p]).take (buf.length / w + 1) = vs ++ [p] :=
        List.take_of_length_le (by simp; omega)
      rw [htake, callAll_append, callAll_mapRun]
      cases hr : (mapRun f st vs).2 with
      | ok st' =>
        have hl := mapRun_length f st st' vs hr
        simp only [hr, ok_bind] at h
        simp only [ok_bind, callAll]
        cases hp : f st' p with
        | ok q =>
          simp only [hp, ok_bind] at h
          simp only [ok_bind]
          by_cases hb : vs.length * w + w ≤ buf.length
          · rw [if_pos hb, scalarFillAll_emits inj h fuel buf (by omega) (by omega) (by omega) (by
              intros; rw [hl]; exact hb)]
            simp [withTail]
          · rw [if_neg hb, scalarFillAll_short inj h fuel buf (by omega) (by
              simp only [withTail, Option.toList_some, List.map_cons, List.map_nil,
                List.length_append, hl, List.length_cons, List.length_nil, Nat.zero_add, Nat.succ_mul]
              omega) (by rw [hl]; omega) hu]
        | _ =>
          rw [hp] at h
          rw [scalarFillAll_emits inj h fuel buf (by omega) (by omega) (by omega)
            (by intros; simp at *)]
          simp
      | _ =>
        rw [hr] at h
        rw [scalarFillAll_emits inj h fuel buf (by omega) (by omega) (by omega)
          (by intros; simp at *)]
        simp
  · -- the results of the full vectors do not fit
    have hdv : buf.length / w < vs.length := (Nat.div_lt_iff_lt_mul hw).mpr (by omega)
    have hge : vs.length * w ≤ (vs ++ t.toList).length * w :=
      Nat.mul_le_mul_right w (by rw [List.length_append]; omega)
    rw [if_neg (by omega), List.take_append_of_le_length (by omega)]
    by_cases hs : (mapRun f st vs).1.length * w ≤ buf.length
    · have hlt : (mapRun f st vs).1.length < vs.length :=
        Nat.lt_of_mul_lt_mul_right (Nat.lt_of_le_of_lt hs (Nat.lt_of_not_le hfull))
      have hd : (mapRun f st vs).1.length ≤ buf.length / w := (Nat.le_div_iff_mul_le hw).mpr hs
      have hnot : ∀ s, (mapRun f st vs).2 ≠ ok s := by
        intro s e
        have := mapRun_length f st s vs e
        omega
      rw [scalarFillAll_emits inj h fuel buf (by omega) hs (by omega) (by
        intro p n it' e
        cases hr : (mapRun f st vs).2 with
        | ok s => exact absurd hr (hnot s)
        | _ => rw [hr] at e; cases e)]
      rw [callAll_take_fail f st vs (buf.length / w + 1) (by omega) hlt _ (fun _ => badAccess c)]
      cases hr : (mapRun f st vs).2 with
      | ok s => exact absurd hr (hnot s)
      | _ => rfl
    · have hd : buf.length / w + 1 ≤ (mapRun f st vs).1.length := by
        have := (Nat.div_lt_iff_lt_mul hw).mpr (Nat.lt_of_not_le hs)
        omega
      obtain ⟨q, hq⟩ := callAll_take_ok f st vs _ hd
      rw [hq]
      obtain ⟨r, h1, -⟩ := h
      simp only [scalarFillAllCells]
      rw [fillAllLoop_runs_short inj h1 fuel buf 0 (by omega) (by omega) (by omega) hu]
      simp

/-- `scalar_collect_all` of anything which behaves like a map and reports `len` vectors. -/
theorem collectAll_outcome {c : Cfg} (f : FnMut σ δ (Vector β w)) (st : σ)
    (vs : List δ) (t : Option δ) (n : Nat) (mk : σ → I) {m : I} {L : Nat}
    (h : Emits c m (mapRun f st vs).1 ((mapRun f st vs).2 >>= fun st' => endOf f n mk st' t))
    (hL : SIMDIterable.len c m = ok L)
    (fuel : Nat) (hf : vs.length < fuel) (hw : 0 < w) (hu : (L + 1) * w < c.usize) :
    scalarCollectAll c fuel m =
      if (vs ++ t.toList).length * w ≤ L then
        callAll f st (vs ++ t.toList) >>= fun q => ok (mk q.2,
          (lanes q.1).map some ++ List.replicate (L - (vs ++ t.toList).length * w) none)
      else callAll f st ((vs ++ t.toList).take (L / w + 1)) >>= fun _ => badAccess c := by
  have h1 : L ≤ L * w := Nat.le_mul_of_pos_right _ hw
  have h2 : (L + 1) * w = L * w + w := Nat.succ_mul _ _
  simp only [scalarCollectAll]
  rw [hL]
  simp only [ok_bind]
  rw [uadd_ok (by omega)]
  simp only [ok_bind]
  rw [umul_ok (by omega)]
  simp only [ok_bind, RVec.setLen, RVec.withCapacity, List.length_replicate]
  rw [if_pos (by omega)]
  simp only [ok_bind, RVec.slice]
  have hlen : ((List.replicate ((L + 1) * w) (none : Option β)).take L) = List.replicate L none := by
    rw [List.take_replicate, Nat.min_eq_left (by omega)]
  rw [hlen, fillAll_outcome some f st vs t n mk h fuel _ hf hw (by rw [List.length_replicate]; omega)]
  rw [List.length_replicate]
  by_cases hfit : (vs ++ t.toList).length * w ≤ L
  · rw [if_pos hfit, if_pos hfit, bind_assoc]
    cases hc : callAll f st (vs ++ t.toList) with
    | ok q =>
      simp only [ok_bind]
      have hq := callAll_length f st _ hc
      have hq2 := lanes_length q.1
      rw [hq] at hq2
      congr 2
      rw [splice_zero]
      simp only [RVec.putSlice]
      rw [List.take_append_of_le_length (by simp; omega), List.take_of_length_le (by simp; omega),
        List.drop_replicate, List.length_map, hq2]
    | _ => rfl
  · rw [if_neg hfit, if_neg hfit, bind_assoc]
    simp only [badAccess_bind]

end

section
variable {I σ α β : Type} {w w' : Nat} [SIMDSized I] [SIMDIterator I α w] [Packable α] [Packable β]

/-- A map has the shape which `fillAll_outcome` asks for. -/
theorem simdMap_endOf {c : Cfg} (f : FnMut σ (Vector α w) (Vector β w')) {it it' : I}
    {vs : List (Vector α w)} {t : Option (Vector α w × Nat)} (h : Emits c it vs (ok (t, it')))
    (hs : 0 < Packable.size β) (hu : ∀ p n, t = some (p, n) → n * Packable.size α < c.usize)
    (st : σ) :
    Emits c (⟨it, st, f⟩ : SIMDMap I σ α w β w') (mapRun f st vs).1
      ((mapRun f st vs).2 >>= fun st' => endOf f (padOf t * Packable.size α / Packable.size β)
        (fun s => (⟨it', s, f⟩ : SIMDMap I σ α w β w')) st' (t.map Prod.fst)) := by
  have := simdMap_emits f h hs hu st
  rcases t with _ | ⟨p, n⟩ <;> exact this

variable {c : Cfg} {S : Nat → I} {l : List α} {d : Vector α w} {more : Nat → Prop}

/-- **C32**, exactly what `scalar_fill_all` of a map does on any iterator which walks over a list, at
any position at which `end` works, for every buffer and closure: the lanes of all results if they
fit, and otherwise the first store which does not fit is out of bounds (a panic in debug builds). -/
theorem C32_driver (h : Driver c S l d more) (fuel : Nat) (st : σ)
    (f : FnMut σ (Vector α w) (Vector β w')) (buf : List β) (p : Nat) (hp : p ≤ l.length)
    (hpos : p = 0 ∨ p = l.length ∨ w < l.length) (hw : 0 < w) (hw' : 0 < w')
    (hs : 0 < Packable.size β) (hvec : w * Packable.size α < c.usize)
    (hu : buf.length + w' < c.usize) (hfuel : l.length / w < fuel) :
    scalarFillAll c fuel (⟨S p, st, f⟩ : SIMDMap I σ α w β w') buf =
      if (calls w d (l.drop p)).length * w' ≤ buf.length then
        callAll f st (calls w d (l.drop p)) >>= fun q =>
          ok (⟨S l.length, q.2, f⟩, splice buf 0 (lanes q.1))
      else callAll f st ((calls w d (l.drop p)).take (buf.length / w' + 1)) >>= fun _ =>
        badAccess c := by
  obtain ⟨n, hc, he⟩ := h.emits_from hw p hp hpos
  have hle : (l.length - p) / w ≤ l.length / w := Nat.div_le_div_right (by omega)
  obtain ⟨h1, -, -, -⟩ := Driver.count_cases hw hc
  rw [List.length_drop] at h1
  have hl : ((fullWindows w (l.drop p)).take n).length = n := by
    rw [List.length_take, fullWindows_length, List.length_drop]; omega
  have hm := simdMap_endOf f he hs (by
    intro v m e
    have h5 := Nat.mul_le_mul_right (Packable.size α) (tailFrom_some e)
    omega) st
  have := fillAll_outcome id f st _ _ _ _ hm fuel buf (by omega) hw' hu
  have e1 : (fullWindows w (l.drop p)).take n ++
      ((tailFrom d (l.drop p) n).map Prod.fst).toList = calls w d (l.drop p) := by
    rw [← withTail_tailFrom hw d _ hc, withTail]
    cases tailFrom d (l.drop p) n <;> rfl
  rw [e1] at this
  simp only [List.map_id_fun, id_eq] at this
  exact this

/-- **C31**, exactly what `scalar_collect_all` of a map does on any iterator which walks over a list,
at any position at which `end` works, for every closure. The `Vec` has as many elements as the whole
collection has vectors: if the lanes of all results do not fit, a store is out of bounds; if there
are fewer, the rest is uninitialised. -/
theorem C31_driver (h : Driver c S l d more) (fuel : Nat) (st : σ)
    (f : FnMut σ (Vector α w) (Vector β w')) (p : Nat) (hp : p ≤ l.length)
    (hpos : p = 0 ∨ p = l.length ∨ w < l.length) (hw : 0 < w) (hw' : 0 < w')
    (hs : 0 < Packable.size β) (hvec : w * Packable.size α < c.usize)
    (hu : (l.length / w + 1) * w' < c.usize) (hfuel : l.length / w < fuel) :
    scalarCollectAll c fuel (⟨S p, st, f⟩ : SIMDMap I σ α w β w') =
      if (calls w d (l.drop p)).length * w' ≤ l.length / w then
        callAll f st (calls w d (l.drop p)) >>= fun q =>
          ok (⟨S l.length, q.2, f⟩, (lanes q.1).map some ++
            List.replicate (l.length / w - (calls w d (l.drop p)).length * w') none)
      else callAll f st ((calls w d (l.drop p)).take (l.length / w / w' + 1)) >>= fun _ =>
        badAccess c := by
  obtain ⟨n, hc, he⟩ := h.emits_from hw p hp hpos
  have hle : (l.length - p) / w ≤ l.length / w := Nat.div_le_div_right (by omega)
  obtain ⟨h1, -, -, -⟩ := Driver.count_cases hw hc
  rw [List.length_drop] at h1
  have hl : ((fullWindows w (l.drop p)).take n).length = n := by
    rw [List.length_take, fullWindows_length, List.length_drop]; omega
  have hm := simdMap_endOf f he hs (by
    intro v m e
    have h5 := Nat.mul_le_mul_right (Packable.size α) (tailFrom_some e)
    omega) st
  have := collectAll_outcome f st _ _ _ _ hm (L := l.length / w) (by exact h.len p) fuel (by omega)
    hw' hu
  have e1 : (fullWindows w (l.drop p)).take n ++
      ((tailFrom d (l.drop p) n).map Prod.fst).toList = calls w d (l.drop p) := by
    rw [← withTail_tailFrom hw d _ hc, withTail]
    cases tailFrom d (l.drop p) n <;> rfl
  rw [e1] at this
  exact this

/-- **C31**, fresh maps with a closure which returns on all vectors: `scalar_collect_all` returns
all lanes exactly if there are none, or the results are vectors of one lane and nothing is left
over. -/
theorem C31_ok_iff (h : Driver c S l d more) (fuel : Nat) (g : Vector α w → Vector β w')
    (hw : 0 < w) (hw' : 0 < w') (hs : 0 < Packable.size β) (hvec : w * Packable.size α < c.usize)
    (hu : (l.length / w + 1) * w' < c.usize) (hfuel : l.length / w < fuel) :
    (∃ it', scalarCollectAll c fuel (simdMap (S 0) () (pureFn g)) =
      ok (it', (lanes ((calls w d l).map g)).map some)) ↔ l = [] ∨ (w' = 1 ∧ l.length % w = 0) := by
  have h1 := C31_driver h fuel () (pureFn g) 0 (Nat.zero_le _) (Or.inl rfl) hw hw' hs hvec hu hfuel
  rw [List.drop_zero] at h1
  have hcl : (calls w d l).length = l.length / w + if l.length % w = 0 then 0 else 1 := by
    rw [calls, List.length_append, fullWindows_length]
    by_cases h0 : l.length % w = 0
    · rw [if_pos h0, if_pos h0]; rfl
    · rw [if_neg h0, if_neg h0]; rfl
  have hd := Nat.div_add_mod l.length w
  have hm := Nat.mod_lt l.length hw
  have hgood : (calls w d l).length * w' ≤ l.length / w ↔ l = [] ∨ (w' = 1 ∧ l.length % w = 0) := by
    rw [hcl]
    by_cases h0 : l.length % w = 0
    · simp only [h0, if_true, Nat.add_zero, and_true]
      constructor
      · intro h2
        rcases Nat.eq_zero_or_pos (l.length / w) with h3 | h3
        · left
          rw [h3, h0, Nat.mul_zero] at hd
          exact List.eq_nil_of_length_eq_zero (by omega)
        · right
          rcases Nat.lt_or_ge 1 w' with h4 | h4
          · have := Nat.mul_le_mul_left (l.length / w) h4
            omega
          · omega
      · rintro (rfl | rfl)
        · simp
        · omega
    · simp only [h0, if_false, and_false, or_false]
      constructor
      · intro h2
        have := Nat.le_mul_of_pos_right (l.length / w + 1) hw'
        omega
      · rintro rfl; simp at h0
  rw [← hgood]
  show (∃ it', scalarCollectAll c fuel (⟨S 0, (), pureFn g⟩ : SIMDMap I Unit α w β w') = _) ↔ _
  rw [h1]
  by_cases hfit : (calls w d l).length * w' ≤ l.length / w
  · rw [if_pos hfit, callAll_pure]
    simp only [ok_bind, hfit, iff_true]
    have e : l.length / w - (calls w d l).length * w' = 0 := by
      rcases hgood.1 hfit with rfl | ⟨rfl, h0⟩
      · simp
      · rw [hcl, if_pos h0]; omega
    rw [e, List.replicate_zero, List.append_nil]
    exact ⟨_, rfl⟩
  · rw [if_neg hfit, callAll_pure]
    simp only [ok_bind, hfit, iff_false]
    rintro ⟨it', e⟩
    rw [badAccess] at e
    split at e <;> cases e

end

/-- Two results of one lane each: the only kind of map for which `scalar_collect_all` is right. -/
example : (scalarCollectAll debug64 9 (simdMap (simdIter (w := 2) [1#8, 2, 3, 4] #v[0, 0]) ()
    (pureFn fun v => #v[v[0] + v[1]]))) >>= (fun r => ok r.2) = ok [some 3#8, some 7] := by
  decide +kernel

/-- On an iterator which is used up, it returns uninitialised elements only. -/
example : (scalarCollectAll debug64 9 (⟨⟨4, ⟨[1#8, 2, 3, 4]⟩, #v[0, 0]⟩, (),
    pureFn (Vector.map (· + 1#8))⟩ : SIMDMap (SIMDIter (Slice (BitVec 8) 2) (BitVec 8) 2) Unit
      (BitVec 8) 2 (BitVec 8) 2)) >>= (fun r => ok r.2) = ok [none, none] := by
  decide +kernel

/-- A buffer of three elements for two vectors of two lanes. -/
example : scalarFillAll release64 9 (simdMap (simdIter (w := 2) [1#8, 2, 3] #v[0, 0]) ()
    (pureFn (Vector.map (· + 1#8)))) [0#8, 0, 0] = ub :=
  (C32_driver (simdIter_driver (represents_slice (w := 2) release64 [1#8, 2, 3]) #v[0, 0]
    (by decide) (by decide)) 9 () _ _ 0 (by decide) (Or.inl rfl) (by decide) (by decide) (by decide)
    (by decide) (by decide) (by decide)).trans (by rw [callAll_pure]; rfl)

section
variable {I R α γ δ : Type} {w : Nat} [SIMDSized I] [SIMDIterator I α w] [Packable α]
  [ZipRest R γ] [LawfulRest R γ δ w]
  {c : Cfg} {S : Nat → I} {r : R} {rows : List (α × δ)} {dv : Vector (α × δ) w} {more : Nat → Prop}

/-- The pass of a map of a zip has the shape which `fillAll_outcome` asks for. -/
theorem zip_endOf {β σ : Type} [Packable β] {w' : Nat}
    (hd : Driver c S (rows.map Prod.fst) (dv.map Prod.fst) more) (hw : 0 < w)
    (hr : LawfulRest.Rep c r (rows.map Prod.snd) (dv.map Prod.snd))
    (hu : rows.length + w < c.usize) (st : σ)
    (f : FnMut σ (Vector α w × γ) (Vector β w')) (p : Nat) (hp : p ≤ rows.length)
    (hpos : p = 0 ∨ p = rows.length ∨ w < rows.length) (hs : 0 < Packable.size β)
    (hvec : w * Packable.size α < c.usize) :
    ∃ (vs : List (Vector α w × γ)) (t : Option (Vector α w × γ)) (n : Nat),
      vs.length ≤ rows.length / w ∧
      vs ++ t.toList = (calls w dv (rows.drop p)).map (packRow R) ∧
      Emits c (zsimdMap (⟨S p, r⟩ : Zip I R) st f) (mapRun f st vs).1
        ((mapRun f st vs).2 >>= fun st' => endOf f n
          (fun s => (⟨⟨S rows.length, r⟩, s, f⟩ : SIMDZipMap (Zip I R) σ (Vector α w × γ) β w'))
          st' t) := by
  obtain ⟨n, hc, he⟩ := zip_emits_from hd hw hr hu p hp hpos
  have hle : (rows.length - p) / w ≤ rows.length / w := Nat.div_le_div_right (by omega)
  obtain ⟨h1, -, -, -⟩ := Driver.count_cases hw hc
  rw [List.length_drop] at h1
  have hl : (((fullWindows w (rows.drop p)).take n).map (packRow R)).length = n := by
    rw [List.length_map, List.length_take, fullWindows_length, List.length_drop]; omega
  have hm := zipMap_emits f he hs (by
    intro v m e
    rcases ht : tailFrom dv (rows.drop p) n with _ | ⟨q, m'⟩
    · rw [ht] at e; cases e
    · rw [ht] at e
      simp only [Option.map_some, Option.some.injEq, Prod.mk.injEq] at e
      have h5 := Nat.mul_le_mul_right (Packable.size α) (tailFrom_some ht)
      rw [← e.2]
      exact Nat.lt_of_le_of_lt h5 hvec) st
  refine ⟨_, (tailFrom dv (rows.drop p) n).map fun q => packRow R q.1,
    padOf (tailFrom dv (rows.drop p) n) * Packable.size α / Packable.size β,
    by rw [hl]; omega, ?_, ?_⟩
  · rw [← zwithTail_tailFrom hw hc, zwithTail]
    cases tailFrom dv (rows.drop p) n <;> rfl
  · rcases ht : tailFrom dv (rows.drop p) n with _ | ⟨q, m'⟩
    · rw [ht] at hm; exact hm
    · rw [ht] at hm; exact hm

/-- **C32**, zips of any arity. -/
theorem C32_zip {β σ : Type} [Packable β] {w' : Nat}
    (hd : Driver c S (rows.map Prod.fst) (dv.map Prod.fst) more) (hw : 0 < w)
    (hr : LawfulRest.Rep c r (rows.map Prod.snd) (dv.map Prod.snd))
    (hu : rows.length + w < c.usize) (fuel : Nat) (st : σ)
    (f : FnMut σ (Vector α w × γ) (Vector β w')) (buf : List β) (p : Nat) (hp : p ≤ rows.length)
    (hpos : p = 0 ∨ p = rows.length ∨ w < rows.length) (hw' : 0 < w') (hs : 0 < Packable.size β)
    (hvec : w * Packable.size α < c.usize) (hbu : buf.length + w' < c.usize)
    (hfuel : rows.length / w < fuel) :
    let cs := (calls w dv (rows.drop p)).map (packRow R)
    scalarFillAll c fuel (zsimdMap (⟨S p, r⟩ : Zip I R) st f) buf =
      if cs.length * w' ≤ buf.length then
        callAll f st cs >>= fun q => ok (⟨⟨S rows.length, r⟩, q.2, f⟩, splice buf 0 (lanes q.1))
      else callAll f st (cs.take (buf.length / w' + 1)) >>= fun _ => badAccess c := by
  obtain ⟨vs, t, n, h1, h2, h3⟩ := zip_endOf hd hw hr hu st f p hp hpos hs hvec
  have := fillAll_outcome id f st _ _ _ _ h3 fuel buf (by omega) hw' hbu
  rw [h2] at this
  simp only [List.map_id_fun, id_eq] at this
  exact this

/-- **C31**, zips of any arity. -/
theorem C31_zip {β σ : Type} [Packable β] {w' : Nat}
    (hd : Driver c S (rows.map Prod.fst) (dv.map Prod.fst) more) (hw : 0 < w)
    (hr : LawfulRest.Rep c r (rows.map Prod.snd) (dv.map Prod.snd))
    (hu : rows.length + w < c.usize) (fuel : Nat) (st : σ)
    (f : FnMut σ (Vector α w × γ) (Vector β w')) (p : Nat) (hp : p ≤ rows.length)
    (hpos : p = 0 ∨ p = rows.length ∨ w < rows.length) (hw' : 0 < w') (hs : 0 < Packable.size β)
    (hvec : w * Packable.size α < c.usize) (hlen' : (rows.length / w + 1) * w' < c.usize)
    (hfuel : rows.length / w < fuel) :
    let cs := (calls w dv (rows.drop p)).map (packRow R)
    scalarCollectAll c fuel (zsimdMap (⟨S p, r⟩ : Zip I R) st f) =
      if cs.length * w' ≤ rows.length / w then
        callAll f st cs >>= fun q => ok (⟨⟨S rows.length, r⟩, q.2, f⟩,
          (lanes q.1).map some ++ List.replicate (rows.length / w - cs.length * w') none)
      else callAll f st (cs.take (rows.length / w / w' + 1)) >>= fun _ => badAccess c := by
  obtain ⟨vs, t, n, h1, h2, h3⟩ := zip_endOf hd hw hr hu st f p hp hpos hs hvec
  have := collectAll_outcome f st _ _ _ _ h3 (L := rows.length / w)
    (by have := hd.len p; simp only [List.length_map] at this; exact this) fuel (by omega) hw' hlen'
  rw [h2] at this
  exact this

end
end Faster
