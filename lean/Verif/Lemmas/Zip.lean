import Verif.Lemmas.Stride
import Verif.Zip
/-
Zipped iterators: passes, consumers, `SIMDZipMap`, and zips of iterators which
represent lists of the same length.
-/
namespace Faster
open Res SIMDSized SIMDIterable SIMDIterator

/-! ### Passes over zipped iterators -/

section
variable {Z γ : Type} [SIMDZippedIterator Z γ]

/-- As `Runs`, for zipped iterators. -/
inductive ZRuns (c : Cfg) : Z → List γ → Res Z → Prop where
  | done {z z' : Z} : SIMDZippedIterator.next c z = ok (none, z') → ZRuns c z [] (ok z')
  | fail {z : Z} {r : Res (Option γ × Z)} : SIMDZippedIterator.next c z = r →
      (∀ x, r ≠ ok x) → ZRuns c z [] r.castFail
  | step {z z1 : Z} {v : γ} {vs : List γ} {r : Res Z} :
      SIMDZippedIterator.next c z = ok (some v, z1) → ZRuns c z1 vs r → ZRuns c z (v :: vs) r

/-- As `Emits`, for zipped iterators. -/
def ZEmits (c : Cfg) (z : Z) (vs : List γ) (e : Res (Option (γ × Nat) × Z)) : Prop :=
  ∃ r, ZRuns c z vs r ∧ e = r >>= fun z' => SIMDZippedIterator.end_ c z'

/-- The vectors passed to a closure. -/
def zwithTail {γ : Type} (vs : List γ) (t : Option (γ × Nat)) : List γ := vs ++ t.toList.map (·.1)

theorem zreduceLoop_runs {A σ : Type} {c : Cfg} (func : σ → A → γ → Res (A × σ))
    {z : Z} {vs : List γ} {r : Res Z} (h : ZRuns c z vs r) :
    ∀ (fuel : Nat) (acc : A) (st : σ), vs.length < fuel →
      zreduceLoop c func fuel z acc st =
        (vs.foldlM (fun (p : A × σ) v => func p.2 p.1 v) (acc, st)) >>= fun p =>
          r >>= fun z' => ok (z', p.1, p.2) := by
  induction h with
  | done h =>
    intro fuel acc st hf
    obtain ⟨f, rfl⟩ : ∃ f, fuel = f + 1 := ⟨fuel - 1, by omega⟩
    simp [zreduceLoop, h]
  | @fail z r h hr =>
    intro fuel acc st hf
    obtain ⟨f, rfl⟩ : ∃ f, fuel = f + 1 := ⟨fuel - 1, by omega⟩
    simp only [zreduceLoop, h]
    cases r with
    | ok a => exact absurd rfl (hr a)
    | _ => simp [castFail]
  | @step z z1 v vs r h1 h2 ih =>
    intro fuel acc st hf
    obtain ⟨f, rfl⟩ : ∃ f, fuel = f + 1 := ⟨fuel - 1, by omega⟩
    simp only [zreduceLoop, h1, ok_bind, List.foldlM_cons, bind_assoc]
    congr 1
    funext p
    exact ih f p.1 p.2 (by simp at hf; omega)

theorem zdoEachLoop_runs {σ : Type} {c : Cfg} (func : FnMut σ γ Unit)
    {z : Z} {vs : List γ} {r : Res Z} (h : ZRuns c z vs r) :
    ∀ (fuel : Nat) (st : σ), vs.length < fuel →
      zdoEachLoop c func fuel z st =
        (callAll func st vs) >>= fun p => r >>= fun z' => ok (z', p.2) := by
  induction h with
  | done h =>
    intro fuel st hf
    obtain ⟨f, rfl⟩ : ∃ f, fuel = f + 1 := ⟨fuel - 1, by omega⟩
    simp [zdoEachLoop, h, callAll]
  | @fail z r h hr =>
    intro fuel st hf
    obtain ⟨f, rfl⟩ : ∃ f, fuel = f + 1 := ⟨fuel - 1, by omega⟩
    simp only [zdoEachLoop, h]
    cases r with
    | ok a => exact absurd rfl (hr a)
    | _ => simp [castFail, callAll]
  | @step z z1 v vs r h1 h2 ih =>
    intro fuel st hf
    obtain ⟨f, rfl⟩ : ∃ f, fuel = f + 1 := ⟨fuel - 1, by omega⟩
    simp only [zdoEachLoop, h1, ok_bind, callAll, bind_assoc]
    congr 1
    funext p
    exact ih f p.2 (by simp at hf; omega)

theorem zsimdReduce_emits {A σ : Type} {c : Cfg} (func : σ → A → γ → Res (A × σ))
    {z z' : Z} {vs : List γ} {t : Option (γ × Nat)}
    (h : ZEmits c z vs (ok (t, z'))) (fuel : Nat) (acc : A) (st : σ) (hf : vs.length < fuel) :
    zsimdReduce c fuel z acc st func =
      ((zwithTail vs t).foldlM (fun (p : A × σ) v => func p.2 p.1 v) (acc, st)) >>= fun p =>
          ok (z', p.1, p.2) := by
  obtain ⟨r, h1, h2⟩ := h
  simp only [zsimdReduce, zreduceLoop_runs func h1 fuel acc st hf, bind_assoc, zwithTail,
    List.foldlM_append]
  congr 1; funext p
  cases r with
  | ok it1 =>
    simp only [ok_bind] at h2
    simp only [ok_bind, ← h2]
    rcases t with _ | ⟨v, n⟩ <;> simp
  | _ => simp at h2

theorem zsimdDoEach_emits {σ : Type} {c : Cfg} (func : FnMut σ γ Unit)
    {z z' : Z} {vs : List γ} {t : Option (γ × Nat)}
    (h : ZEmits c z vs (ok (t, z'))) (fuel : Nat) (st : σ) (hf : vs.length < fuel) :
    zsimdDoEach c fuel z st func =
      (callAll func st (zwithTail vs t)) >>= fun p => ok (z', p.2) := by
  obtain ⟨r, h1, h2⟩ := h
  simp only [zsimdDoEach, zdoEachLoop_runs func h1 fuel st hf, bind_assoc, zwithTail,
    callAll_append]
  congr 1; funext p
  cases r with
  | ok it1 =>
    simp only [ok_bind] at h2
    simp only [ok_bind, ← h2]
    rcases t with _ | ⟨v, n⟩ <;> simp [callAll]
  | _ => simp at h2

/-! ### `SIMDZipMap` -/

variable {σ β : Type} {w' : Nat} [Packable β]

theorem zipMap_runs {c : Cfg} (f : FnMut σ γ (Vector β w')) {z : Z}
    {vs : List γ} {r : Res Z} (h : ZRuns c z vs r) : ∀ (st : σ),
    Runs c (⟨z, st, f⟩ : SIMDZipMap Z σ γ β w') (mapRun f st vs).1
      ((mapRun f st vs).2 >>= fun st' => r >>= fun z' => ok ⟨z', st', f⟩) := by
  induction h with
  | done h =>
    intro st
    refine Runs.done ?_
    simp [SIMDIterable.next, SIMDZipMap.next, h]
  | @fail z r h hr =>
    intro st
    have e : next c (⟨z, st, f⟩ : SIMDZipMap Z σ γ β w') = r.castFail := by
      simp only [SIMDIterable.next, SIMDZipMap.next, h]
      cases r with
      | ok a => exact absurd rfl (hr a)
      | _ => rfl
    have := Runs.fail e (by
      cases r with
      | ok a => exact absurd rfl (hr a)
      | _ => simp [castFail])
    simp only [mapRun, ok_bind]
    cases r with
    | ok a => exact absurd rfl (hr a)
    | _ => exact this
  | @step z z1 v vs r h1 h2 ih =>
    intro st
    have e : next c (⟨z, st, f⟩ : SIMDZipMap Z σ γ β w') =
        f st v >>= fun p => ok (some p.1, ⟨z1, p.2, f⟩) := by
      simp only [SIMDIterable.next, SIMDZipMap.next, h1, ok_bind]
    simp only [mapRun]
    cases hf : f st v with
    | ok p =>
      simp only [hf, ok_bind] at e
      exact Runs.step e (ih p.2)
    | _ =>
      simp only [hf, panic_bind, ub_bind, hang_bind] at e
      exact Runs.fail e (by simp)

/-- The closure applied to the outcome of `end`; `sz` is the scalar size of the
first iterator. -/
def zmapTail (f : FnMut σ γ (Vector β w')) (sz : Nat) (z' : Z) (st' : σ) :
    Option (γ × Nat) → Res (Option (Vector β w' × Nat) × SIMDZipMap Z σ γ β w')
  | none => ok (none, ⟨z', st', f⟩)
  | some (p, n) => f st' p >>= fun q =>
    ok (some (q.1, n * sz / Packable.size β), ⟨z', q.2, f⟩)

theorem zipMap_emits {c : Cfg} (f : FnMut σ γ (Vector β w')) {z z' : Z}
    {vs : List γ} {t : Option (γ × Nat)} (h : ZEmits c z vs (ok (t, z')))
    (hs : 0 < Packable.size β)
    (hu : ∀ p n, t = some (p, n) → n * SIMDZippedIterator.size z' < c.usize) (st : σ) :
    Emits c (⟨z, st, f⟩ : SIMDZipMap Z σ γ β w') (mapRun f st vs).1
      ((mapRun f st vs).2 >>= fun st' => zmapTail f (SIMDZippedIterator.size z') z' st' t) := by
  obtain ⟨r, h1, h2⟩ := h
  refine ⟨_, zipMap_runs f h1 st, ?_⟩
  rw [bind_assoc]
  congr 1; funext st'
  cases r with
  | ok it1 =>
    simp only [ok_bind] at h2
    simp only [ok_bind, SIMDIterator.end_, SIMDZipMap.end_, ← h2]
    rcases t with _ | ⟨p, n⟩
    · rfl
    · simp only []
      rw [umul_ok (hu p n rfl)]
      simp only [ok_bind]
      rw [udiv_ok hs]
      simp [zmapTail]
  | _ => simp at h2

/-- Empty lanes in front of the last vectors of a pass. -/
def zpadOf {γ : Type} (t : Option (γ × Nat)) : Nat := (t.map (·.2)).getD 0

/-- `scalar_collect` after `simd_map` over any zipped source. -/
theorem scalarCollect_zipMap {c : Cfg} (f : FnMut σ γ (Vector β w')) {z z' : Z}
    {vs : List γ} {t : Option (γ × Nat)} (h : ZEmits c z vs (ok (t, z')))
    {L sz : Nat} (hsz : SIMDZippedIterator.size z' = sz) (hw' : 0 < w') (hs : 0 < Packable.size β)
    (hL : SIMDZippedIterator.len c z = ok L) (hv : vs.length ≤ L)
    (hL2 : t = none → SIMDZippedIterator.len c z' = ok vs.length)
    (hn : ∀ p n, t = some (p, n) → n * sz < c.usize ∧ n * sz / Packable.size β ≤ w')
    (hu : (L + 1) * w' < c.usize) (fuel : Nat) (hf : vs.length < fuel) (st : σ) :
    scalarCollect c fuel (zsimdMap z st f) =
      callAll f st (zwithTail vs t) >>= fun p => ok (⟨z', p.2, f⟩,
        (unpad (zpadOf t * sz / Packable.size β) p.1).map some) := by
  subst hsz
  have hm := zipMap_emits f h hs (fun p n e => (hn p n e).1) st
  have hlen := mapRun_length_le f st vs
  rw [zsimdMap, scalarCollect_emits hm fuel (by omega) hw' (L := L) (by exact hL) (by omega) hu]
  · rw [zwithTail, callAll_append, callAll_mapRun f st vs]
    rcases t with _ | ⟨p, n⟩
    · simp only [zmapTail, bind_assoc, ok_bind, Option.toList_none, List.map_nil, callAll, zpadOf,
        Option.map_none, Option.getD_none, Nat.zero_mul, Nat.zero_div, unpad_zero,
        List.append_nil]
    · simp only [zmapTail, bind_assoc, ok_bind, Option.toList_some, List.map_cons, List.map_nil,
        callAll, zpadOf, Option.map_some, Option.getD_some, unpad_concat]
  · intro p n it2 e
    rcases t with _ | ⟨p1, n1⟩
    · cases h2 : (mapRun f st vs).2 with
      | ok a => simp [zmapTail, h2] at e
      | _ => simp [zmapTail, h2] at e
    · cases h2 : (mapRun f st vs).2 with
      | ok a =>
        simp only [zmapTail, h2, ok_bind] at e
        cases h3 : f a p1 with
        | ok q =>
          simp only [h3, ok_bind, ok.injEq, Prod.mk.injEq, Option.some.injEq] at e
          rw [← e.1.2]
          exact (hn p1 n1 rfl).2
        | _ => simp [h3] at e
      | _ => simp [zmapTail, h2] at e
  · intro it2 e
    cases h2 : (mapRun f st vs).2 with
    | ok a =>
      rw [mapRun_length f st a vs h2]
      rcases t with _ | ⟨p1, n1⟩
      · simp only [zmapTail, h2, ok_bind, ok.injEq, Prod.mk.injEq, true_and] at e
        rw [← e]
        exact hL2 rfl
      · simp only [zmapTail, h2, ok_bind] at e
        cases h3 : f a p1 with
        | ok q => simp [h3] at e
        | _ => simp [h3] at e
    | _ => simp [zmapTail, h2] at e

end

/-! ### Zips of iterators over lists of one length

The collections are described by one list of rows `δ` (tuples of scalars); the
collections are its columns. -/

section Blanket
variable {T α : Type} {w : Nat} [SIMDSized T] [SIMDIterable T α w] [SIMDArray T α w]

omit [SIMDIterable T α w] in
theorem nextUnchecked_ok {c : Cfg} {t : T} {l : List α} (h : Represents c t l) (p : Nat)
    (hp : p + w ≤ l.length) (hu : l.length < c.usize) :
    nextUnchecked c t p = ok (windowAt l p w hp) := by
  simp only [nextUnchecked, h.loadUnchecked p hp]
  cases c.debug
  · simp
  · simp only [if_true]
    rw [uadd_ok (by omega), h.scalarLen]
    simp [hp, assert]

theorem endUnchecked_ok {c : Cfg} {t : T} {l : List α} (h : Represents c t l) (p : Nat)
    (hp : p < l.length) (hr : l.length - p ≤ w) (hs : p = 0 ∨ w < l.length) (hu : w < c.usize) :
    endUnchecked c t p (w - (l.length - p)) = ok (padFront (dflt t) (l.drop p)) := by
  simp only [endUnchecked, h.scalarLen, ok_bind, debugAssert, hp, decide_true]
  rw [endVec_ok h p hp hr hs hu]
  cases c.debug
  · simp
  · simp only [if_true]
    rw [usub_ok (show p ≤ l.length by omega)]
    simp only [ok_bind]
    rw [usub_ok hr]
    simp [assert]

end Blanket

/-- The further iterators of a tuple, together: `Rep c r rows dv` says that they
represent the columns of `rows` and that their defaults are the columns of `dv`;
`pack` splits a vector of rows into a tuple of column vectors. -/
class LawfulRest (R : Type) (γ : outParam Type) (δ : outParam Type) (w : Nat) [ZipRest R γ] where
  pack : Vector δ w → γ
  Rep : Cfg → R → List δ → Vector δ w → Prop
  len_ok : ∀ {c r rows dv}, 0 < w → Rep c r rows dv →
    ZipRest.lenDiffers c r (rows.length / w) = ok false
  default_ok : ∀ {c r rows dv}, Rep c r rows dv → ZipRest.defaultAll r = pack dv
  next_ok : ∀ {c r rows dv} (p : Nat) (hp : p + w ≤ rows.length), rows.length < c.usize →
    Rep c r rows dv → ZipRest.nextAll c r p = ok (pack (windowAt rows p w hp))
  end_ok : ∀ {c r rows dv} (p : Nat), p < rows.length → rows.length - p ≤ w →
    (p = 0 ∨ w < rows.length) → w < c.usize → Rep c r rows dv →
    ZipRest.endAll c r p (w - (rows.length - p)) = ok (pack (padFront dv (rows.drop p)))

instance instLawfulUnit (w : Nat) : LawfulRest Unit Unit Unit w where
  pack _ := ()
  Rep _ _ _ _ := True
  len_ok _ _ := rfl
  default_ok _ := rfl
  next_ok _ _ _ _ := rfl
  end_ok _ _ _ _ _ _ := rfl

theorem windowAt_map {α β : Type} {w : Nat} (g : α → β) (l : List α) (p : Nat)
    (hp : p + w ≤ l.length) :
    windowAt (l.map g) p w (by simpa using hp) = (windowAt l p w hp).map g := by
  ext i hi; simp [windowAt]

theorem padFront_map {α β : Type} {w : Nat} (g : α → β) (d : Vector α w) (l : List α)
    (hl : l.length ≤ w) : padFront (d.map g) (l.map g) = (padFront d l).map g := by
  ext i hi
  rw [Vector.getElem_map, padFront_getElem _ _ _ _ (by simpa using hl),
    padFront_getElem _ _ _ _ hl]
  simp only [List.length_map]
  split <;> simp

/-- An iterator over a list of scalars, with given default. -/
structure RepIter {T α : Type} {w : Nat} [SIMDSized T] [SIMDIterable T α w] [SIMDArray T α w]
    (c : Cfg) (t : T) (l : List α) (d : Vector α w) : Prop where
  rep : Represents c t l
  dflt : dflt t = d
  len : SIMDIterable.len c t = ok (l.length / w)

instance instLawfulCons {T R α γ δ : Type} {w : Nat} [SIMDSized T] [SIMDIterable T α w]
    [SIMDArray T α w] [ZipRest R γ] [LawfulRest R γ δ w] :
    LawfulRest (T × R) (Vector α w × γ) (α × δ) w where
  pack v := (v.map Prod.fst, LawfulRest.pack R (v.map Prod.snd))
  Rep c r rows dv := RepIter c r.1 (rows.map Prod.fst) (dv.map Prod.fst) ∧
    LawfulRest.Rep c r.2 (rows.map Prod.snd) (dv.map Prod.snd)
  len_ok := by
    intro c r rows dv hw h
    have h2 := LawfulRest.len_ok hw h.2
    have h1 := h.1.len
    simp only [List.length_map] at h1 h2
    simp only [ZipRest.lenDiffers, h1, ok_bind]
    simp [h2]
  default_ok := by
    intro c r rows dv h
    simp only [ZipRest.defaultAll, h.1.dflt, LawfulRest.default_ok h.2]
  next_ok := by
    intro c r rows dv p hp hu h
    have h1 := nextUnchecked_ok h.1.rep p (by simpa using hp) (by simpa using hu)
    have h2 := LawfulRest.next_ok p (by simpa using hp) (by simpa using hu) h.2
    simp only [ZipRest.nextAll, h1, h2, ok_bind]
    rw [windowAt_map, windowAt_map]
  end_ok := by
    intro c r rows dv p hp hr hs hu h
    have h1 := endUnchecked_ok h.1.rep p (by simpa using hp) (by simpa using hr)
      (by simpa using hs) hu
    have h2 := LawfulRest.end_ok p (by simpa using hp) (by simpa using hr) (by simpa using hs) hu h.2
    simp only [List.length_map] at h1 h2
    simp only [ZipRest.endAll, h1, h2, ok_bind, h.1.dflt]
    rw [← List.map_drop, ← List.map_drop, padFront_map _ _ _ (by simp; omega),
      padFront_map _ _ _ (by simp; omega)]

section Zip
variable {I R α γ δ : Type} {w : Nat} [SIMDSized I] [SIMDIterator I α w] [Packable α]
  [ZipRest R γ] [LawfulRest R γ δ w]

/-- The tuple of vectors of a vector of rows. -/
def packRow (R : Type) {γ α δ : Type} {w : Nat} [ZipRest R γ] [LawfulRest R γ δ w]
    (v : Vector (α × δ) w) : Vector α w × γ :=
  (v.map Prod.fst, LawfulRest.pack R (v.map Prod.snd))

variable {c : Cfg} {S : Nat → I} {r : R} {rows : List (α × δ)} {dv : Vector (α × δ) w}
  {more : Nat → Prop}

omit [Packable α] in
theorem zip_ok (hd : Driver c S (rows.map Prod.fst) (dv.map Prod.fst) more) (hw : 0 < w)
    (hr : LawfulRest.Rep c r (rows.map Prod.snd) (dv.map Prod.snd)) (p : Nat) :
    zip c (S p) r = ok ⟨S p, r⟩ := by
  have h1 := hd.len p
  have h2 := LawfulRest.len_ok hw hr
  simp only [List.length_map] at h1 h2
  simp [zip, h1, h2]

theorem zip_next (hd : Driver c S (rows.map Prod.fst) (dv.map Prod.fst) more)
    (hr : LawfulRest.Rep c r (rows.map Prod.snd) (dv.map Prod.snd)) (hu : rows.length < c.usize)
    (p : Nat) :
    (more p → ∃ h : p + w ≤ rows.length, SIMDZippedIterator.next c (⟨S p, r⟩ : Zip I R) =
      ok (some (packRow R (windowAt rows p w h)), ⟨S (p + w), r⟩)) ∧
    (¬ more p → p ≤ rows.length →
      SIMDZippedIterator.next c (⟨S p, r⟩ : Zip I R) = ok (none, ⟨S p, r⟩)) := by
  constructor
  · intro hm
    obtain ⟨h1, h2⟩ := hd.next_some p hm
    have h1' : p + w ≤ rows.length := by simpa using h1
    have h3 := hd.pos p (by omega)
    have h4 := LawfulRest.next_ok p (by simpa using h1) (by simpa using hu) hr
    refine ⟨h1', ?_⟩
    simp only [SIMDZippedIterator.next, Zip.next, h2, h3, h4, ok_bind, packRow]
    rw [windowAt_map, windowAt_map]
  · intro hm hp
    have h2 := hd.next_none p (by simpa using hp) hm
    have h3 := hd.pos p (by simpa using hp)
    simp only [SIMDZippedIterator.next, Zip.next, h2, h3, ok_bind]

theorem zip_end (hd : Driver c S (rows.map Prod.fst) (dv.map Prod.fst) more)
    (hr : LawfulRest.Rep c r (rows.map Prod.snd) (dv.map Prod.snd)) (hu : w < c.usize)
    (p : Nat) (hp : p ≤ rows.length) (hm : ¬ more p) (hs : p < rows.length → p = 0 ∨ w < rows.length) :
    SIMDZippedIterator.end_ c (⟨S p, r⟩ : Zip I R) =
      if p < rows.length
      then ok (some (packRow R (padFront dv (rows.drop p)), w - (rows.length - p)),
        ⟨S rows.length, r⟩)
      else ok (none, ⟨S p, r⟩) := by
  have h1 := hd.end_ p (by simpa using hp) hm (by simpa using hs)
  have h3 := hd.pos p (by simpa using hp)
  have h4 := hd.few p hm
  simp only [List.length_map] at h1 h4
  simp only [SIMDZippedIterator.end_, Zip.end_, h1, h3, ok_bind]
  by_cases h : p < rows.length
  · have h5 := LawfulRest.end_ok p (by simpa using h) (by simp; omega) (by simpa using hs h) hu hr
    simp only [List.length_map] at h5
    simp only [h, if_true, ok_bind, h5, packRow]
    rw [← List.map_drop, ← List.map_drop, padFront_map _ _ _ (by simp; omega),
      padFront_map _ _ _ (by simp; omega)]
  · simp only [h, if_false, ok_bind]

theorem zip_runs_from (hd : Driver c S (rows.map Prod.fst) (dv.map Prod.fst) more) (hw : 0 < w)
    (hr : LawfulRest.Rep c r (rows.map Prod.snd) (dv.map Prod.snd)) (hu : rows.length < c.usize) :
    ∀ p, p ≤ rows.length → ∃ n,
      ZRuns c (⟨S p, r⟩ : Zip I R) (((fullWindows w (rows.drop p)).take n).map (packRow R))
        (ok ⟨S (p + n * w), r⟩) ∧
      ¬ more (p + n * w) ∧ Driver.count w (rows.drop p) n := by
  intro p
  induction hk : rows.length - p using Nat.strongRecOn generalizing p with
  | _ k ih =>
    intro hp
    by_cases hm : more p
    · obtain ⟨hle, hn⟩ := (zip_next hd hr hu p).1 hm
      obtain ⟨n, hr', hs, hc⟩ := ih (rows.length - (p + w)) (by omega) (p + w) rfl hle
      refine ⟨n + 1, ?_, ?_, ?_⟩
      · rw [fullWindows_cons hw (by simp; omega), List.take_succ_cons, List.drop_drop, List.map_cons]
        have e : windowAt (rows.drop p) 0 w (by simp; omega) = windowAt rows p w hle := by
          ext i hi; simp [windowAt]; simp [windowAt]
        rw [e, show p + (n + 1) * w = p + w + n * w by rw [Nat.succ_mul]; omega]
        exact ZRuns.step hn hr'
      · rwa [show p + (n + 1) * w = p + w + n * w by rw [Nat.succ_mul]; omega]
      · simp only [Driver.count, List.length_drop] at hc ⊢
        rw [Nat.div_eq_sub_div hw (show w ≤ rows.length - p by omega),
          Nat.mod_eq_sub_mod (show w ≤ rows.length - p by omega),
          show rows.length - p - w = rows.length - (p + w) by omega]
        omega
    · refine ⟨0, ?_, by simpa using hm, ?_⟩
      · simpa using ZRuns.done ((zip_next hd hr hu p).2 hm hp)
      · have := hd.few p hm
        simp only [List.length_map] at this
        simp only [Driver.count, List.length_drop]
        by_cases h3 : rows.length - p = w
        · right; rw [h3, Nat.mod_self, Nat.div_self hw]; simp
        · left; rw [Nat.div_eq_of_lt (by omega)]

/-- A complete pass over a zip from the start. -/
theorem zip_emits (hd : Driver c S (rows.map Prod.fst) (dv.map Prod.fst) more) (hw : 0 < w)
    (hr : LawfulRest.Rep c r (rows.map Prod.snd) (dv.map Prod.snd))
    (hu : rows.length + w < c.usize) :
    ∃ n, Driver.count w rows n ∧
      ZEmits c (⟨S 0, r⟩ : Zip I R) (((fullWindows w rows).take n).map (packRow R))
        (ok ((tailFrom dv rows n).map fun q => (packRow R q.1, q.2), ⟨S rows.length, r⟩)) := by
  obtain ⟨n, h1, hs, hc⟩ := zip_runs_from hd hw hr (by omega) 0 (Nat.zero_le _)
  simp only [List.drop_zero, Nat.zero_add] at h1 hs hc
  obtain ⟨h2, h3, h4, -⟩ := Driver.count_cases hw hc
  refine ⟨n, hc, _, h1, ?_⟩
  simp only [ok_bind]
  rw [zip_end hd hr (by omega) _ h3 hs]
  · simp only [tailFrom]
    split
    · rfl
    · rw [show n * w = rows.length by omega]; rfl
  · intro hlt
    by_cases hn : n = 0
    · left; rw [hn, Nat.zero_mul]
    · right
      have := Nat.le_mul_of_pos_left w (Nat.pos_of_ne_zero hn)
      omega

omit [Packable α] [SIMDIterator I α w] [SIMDSized I] in
theorem zwithTail_tailFrom (hw : 0 < w) {n : Nat} (h : Driver.count w rows n) :
    zwithTail (((fullWindows w rows).take n).map (packRow R))
      ((tailFrom dv rows n).map fun q => (packRow R q.1, q.2)) =
      (calls w dv rows).map (packRow R) := by
  rw [← withTail_tailFrom hw dv rows h, withTail, zwithTail, List.map_append]
  congr 1
  cases tailFrom dv rows n <;> rfl

/-- `zip`, `simd_map`, `scalar_collect`, any closure. -/
theorem zip_collect_any {β σ : Type} [Packable β] {w' : Nat}
    (hd : Driver c S (rows.map Prod.fst) (dv.map Prod.fst) more) (hw : 0 < w)
    (hr : LawfulRest.Rep c r (rows.map Prod.snd) (dv.map Prod.snd))
    (hu : rows.length + w < c.usize) (fuel : Nat) (st : σ)
    (f : FnMut σ (Vector α w × γ) (Vector β w'))
    (hw' : 0 < w') (hs : 0 < Packable.size β)
    (hsize : w * Packable.size α = w' * Packable.size β)
    (hlen' : (rows.length / w + 1) * w' < c.usize)
    (hvec : w * Packable.size α < c.usize) (hfuel : rows.length / w < fuel) :
    (do
      let z ← zip c (S 0) r
      scalarCollect c fuel (zsimdMap z st f)) = (do
      let (outs, st') ← callAll f st ((calls w dv rows).map (packRow R))
      ok (⟨⟨S rows.length, r⟩, st', f⟩,
        (unpad ((w - rows.length % w) % w * Packable.size α / Packable.size β) outs).map some)) := by
  rw [zip_ok hd hw hr]
  simp only [ok_bind]
  obtain ⟨n, hc, he⟩ := zip_emits hd hw hr hu
  obtain ⟨h1, h2, h3, h4⟩ := Driver.count_cases hw hc
  have hl : (((fullWindows w rows).take n).map (packRow R)).length = n := by
    rw [List.length_map, List.length_take, fullWindows_length]; omega
  have hlen : ∀ p, SIMDZippedIterator.len c (⟨S p, r⟩ : Zip I R) = ok (rows.length / w) := by
    intro p
    have := hd.len p
    simp only [List.length_map] at this
    exact this
  have hpad : zpadOf ((tailFrom dv rows n).map fun q => (packRow R q.1, q.2)) =
      (w - rows.length % w) % w := by
    rw [← padOf_tailFrom hw dv rows hc]
    simp only [zpadOf, padOf]
    cases tailFrom dv rows n <;> rfl
  rw [scalarCollect_zipMap f he (sz := Packable.size α) rfl hw' hs (hlen 0) (by omega) _ _ hlen'
    fuel (by omega) st, zwithTail_tailFrom hw hc, hpad]
  · intro ht
    rw [hlen, hl, h4]
    unfold tailFrom at ht
    split at ht
    · cases ht
    · omega
  · intro p m hpm
    rcases ht : tailFrom dv rows n with _ | ⟨q, m'⟩
    · rw [ht] at hpm; cases hpm
    · rw [ht] at hpm
      simp only [Option.map_some, Option.some.injEq, Prod.mk.injEq] at hpm
      have h5 := tailFrom_some ht
      have h6 : m * Packable.size α ≤ w * Packable.size α := Nat.mul_le_mul_right _ (by omega)
      refine ⟨by omega, ?_⟩
      rw [hsize] at h6
      exact Nat.div_le_of_le_mul (by rw [Nat.mul_comm (Packable.size β)]; exact h6)

/-- `zip`, `simd_do_each`, any closure. -/
theorem zip_do_each {σ : Type}
    (hd : Driver c S (rows.map Prod.fst) (dv.map Prod.fst) more) (hw : 0 < w)
    (hr : LawfulRest.Rep c r (rows.map Prod.snd) (dv.map Prod.snd))
    (hu : rows.length + w < c.usize) (fuel : Nat) (st : σ)
    (f : FnMut σ (Vector α w × γ) Unit) (hfuel : rows.length / w < fuel) :
    (do
      let z ← zip c (S 0) r
      zsimdDoEach c fuel z st f) = (do
      let (_, st') ← callAll f st ((calls w dv rows).map (packRow R))
      ok (⟨S rows.length, r⟩, st')) := by
  rw [zip_ok hd hw hr]
  simp only [ok_bind]
  obtain ⟨n, hc, he⟩ := zip_emits hd hw hr hu
  obtain ⟨h1, -⟩ := Driver.count_cases hw hc
  rw [zsimdDoEach_emits f he fuel st
    (by rw [List.length_map, List.length_take, fullWindows_length]; omega), zwithTail_tailFrom hw hc]

/-- `zip`, `simd_reduce`, any closure. -/
theorem zip_reduce {A σ : Type}
    (hd : Driver c S (rows.map Prod.fst) (dv.map Prod.fst) more) (hw : 0 < w)
    (hr : LawfulRest.Rep c r (rows.map Prod.snd) (dv.map Prod.snd))
    (hu : rows.length + w < c.usize) (fuel : Nat) (start : A) (st : σ)
    (f : σ → A → Vector α w × γ → Res (A × σ)) (hfuel : rows.length / w < fuel) :
    (do
      let z ← zip c (S 0) r
      zsimdReduce c fuel z start st f) = (do
      let (acc, st') ← ((calls w dv rows).map (packRow R)).foldlM
        (fun (acc, st) v => f st acc v) (start, st)
      ok (⟨S rows.length, r⟩, acc, st')) := by
  rw [zip_ok hd hw hr]
  simp only [ok_bind]
  obtain ⟨n, hc, he⟩ := zip_emits hd hw hr hu
  obtain ⟨h1, -⟩ := Driver.count_cases hw hc
  rw [zsimdReduce_emits f he fuel start st
    (by rw [List.length_map, List.length_take, fullWindows_length]; omega), zwithTail_tailFrom hw hc]

end Zip
end Faster
