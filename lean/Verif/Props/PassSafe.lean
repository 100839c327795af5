import Verif.Props.StrideZip
/-
C91: a complete pass over any pipeline finishes without undefined behaviour, in
release builds as well as in debug builds, and exposes no uninitialised memory.

The pipelines are: fresh iterators over slices, strides of those (any nesting),
any number of maps, zips of any number of such sources of one length, and
`stride_zip` of any pipeline, with closures which return or panic. The sizes must
leave room for one more vector in `usize`.
-/
namespace Faster
open Res SIMDSized SIMDIterable SIMDIterator

/-- The program returns or panics: no undefined behaviour, no endless loop. -/
def Res.finishes {α : Type} : Res α → Prop
  | ok _ => True
  | panic => True
  | ub => False
  | hang => False

/-- A closure which always returns or panics. -/
def Calm {σ β γ : Type} (f : FnMut σ β γ) : Prop := ∀ st v, (f st v).finishes

/-- A reducing closure which always returns or panics. -/
def Calm2 {A σ β : Type} (f : σ → A → β → Res (A × σ)) : Prop := ∀ st a v, (f st a v).finishes

theorem finishes_bind {α β : Type} {x : Res α} {f : α → Res β} (h : x.finishes)
    (hf : ∀ a, x = ok a → (f a).finishes) : (x >>= f).finishes := by
  cases x with
  | ok a => exact hf a rfl
  | panic => trivial
  | ub => exact h.elim
  | hang => exact h.elim

theorem finishes_castFail {α β : Type} {x : Res α} (h : x.finishes) (hx : ∀ a, x ≠ ok a) :
    (x.castFail : Res β).finishes := by
  cases x with
  | ok a => exact absurd rfl (hx a)
  | _ => exact h

theorem mapRun_finishes {σ β γ : Type} {f : FnMut σ β γ} (hf : Calm f) (st : σ) (vs : List β) :
    (mapRun f st vs).2.finishes := by
  induction vs generalizing st with
  | nil => trivial
  | cons v vs ih =>
    have h := hf st v
    simp only [mapRun]
    cases hv : f st v with
    | ok p => exact ih p.2
    | _ => rw [hv] at h; exact h

theorem callAll_finishes {σ β γ : Type} {f : FnMut σ β γ} (hf : Calm f) (st : σ) (vs : List β) :
    (callAll f st vs).finishes := by
  rw [callAll_mapRun]
  exact finishes_bind (mapRun_finishes hf st vs) fun _ _ => trivial

theorem foldlM_finishes {A σ β : Type} {f : σ → A → β → Res (A × σ)} (hf : Calm2 f) (vs : List β) :
    ∀ p : A × σ, (vs.foldlM (fun (p : A × σ) v => f p.2 p.1 v) p).finishes := by
  induction vs with
  | nil => intro p; trivial
  | cons v vs ih =>
    intro p
    rw [List.foldlM_cons]
    exact finishes_bind (hf _ _ _) fun a _ => ih a

/-! ### What is proved about a pipeline -/

/-- A pass over an iterator with registers of `R` bytes: `next` delivers `vs` and
then `None` for good, `end` reports at most as many empty lanes as there are, and
`len` does not promise more than is delivered. -/
def Pass {I α : Type} {w : Nat} [SIMDSized I] [SIMDIterator I α w] (c : Cfg) (R : Nat) (it : I) :
    Prop :=
  ∃ (L : Nat) (vs : List (Vector α w)) (r : Res I),
    Runs c it vs r ∧ r.finishes ∧ (∀ it1, r = ok it1 → next c it1 = ok (none, it1)) ∧
    (r >>= fun it1 => end_ c it1).finishes ∧
    (∀ p n it', (r >>= fun it1 => end_ c it1) = ok (some (p, n), it') → n ≤ w ∧
      ∃ L', len c it' = ok L' ∧ vs.length ≤ L' ∧ L' ≤ vs.length + 1) ∧
    (∀ it', (r >>= fun it1 => end_ c it1) = ok (none, it') → len c it' = ok vs.length) ∧
    len c it = ok L ∧ vs.length ≤ L ∧ (L + 1) * R < c.usize

/-- As `Pass`, for zipped iterators whose first iterator has vectors of `w`
scalars of `s` bytes. -/
def ZPass {Z γ : Type} [SIMDZippedIterator Z γ] (c : Cfg) (w R : Nat) (z : Z) : Prop :=
  (∀ z' : Z, w * SIMDZippedIterator.size z' = R) ∧
  ∃ (L : Nat) (vs : List γ) (r : Res Z),
    ZRuns c z vs r ∧ r.finishes ∧
    (∀ z1, r = ok z1 → SIMDZippedIterator.next c z1 = ok (none, z1)) ∧
    (r >>= fun z1 => SIMDZippedIterator.end_ c z1).finishes ∧
    (∀ p n z', (r >>= fun z1 => SIMDZippedIterator.end_ c z1) = ok (some (p, n), z') → n ≤ w ∧
      ∃ L', SIMDZippedIterator.len c z' = ok L' ∧ vs.length ≤ L' ∧ L' ≤ vs.length + 1) ∧
    (∀ z', (r >>= fun z1 => SIMDZippedIterator.end_ c z1) = ok (none, z') →
      SIMDZippedIterator.len c z' = ok vs.length) ∧
    SIMDZippedIterator.len c z = ok L ∧ vs.length ≤ L ∧ (L + 1) * R < c.usize

/-- The number of empty lanes after a change of the scalar size. -/
theorem scale_le {c : Cfg} {R L w w' sa sb n : Nat} (h1 : w * sa = R) (h2 : w' * sb = R)
    (hu : (L + 1) * R < c.usize) (hn : n ≤ w) : n * sa < c.usize ∧ n * sa / sb ≤ w' := by
  have h3 : n * sa ≤ w * sa := Nat.mul_le_mul_right _ hn
  have h4 : R ≤ (L + 1) * R := Nat.le_mul_of_pos_left _ (Nat.succ_pos L)
  refine ⟨by omega, Nat.div_le_of_le_mul ?_⟩
  rw [Nat.mul_comm sb, h2]; omega

section Map
variable {I σ α β : Type} {w w' : Nat} [SIMDSized I] [SIMDIterator I α w] [Packable α] [Packable β]
  {c : Cfg} {R : Nat}

theorem map_pass {it : I} (h : Pass c R it) (h1 : w * Packable.size α = R)
    (h2 : w' * Packable.size β = R) (hs : 0 < Packable.size β) (st : σ)
    (f : FnMut σ (Vector α w) (Vector β w')) (hf : Calm f) : Pass c R (simdMap it st f) := by
  obtain ⟨L, vs, r, hr, hfin, hidle, he, hsome, hnone, hL, hv, hu⟩ := h
  have hm := mapRun_finishes hf st vs
  refine ⟨L, _, _, simdMap_runs f hr st, ?_, ?_, ?_, ?_, ?_, hL,
    Nat.le_trans (mapRun_length_le f st vs) hv, hu⟩
  · exact finishes_bind hm fun _ _ => finishes_bind hfin fun _ _ => trivial
  · intro it1 e
    cases hq : (mapRun f st vs).2 with
    | ok st' =>
      cases r with
      | ok i =>
        simp only [hq, ok_bind, ok.injEq] at e
        subst e
        simp only [SIMDIterable.next, SIMDMap.next, hidle i rfl, ok_bind]
      | _ => simp [hq] at e
    | _ => simp [hq] at e
  · simp only [bind_assoc]
    refine finishes_bind hm fun st' _ => finishes_bind hfin fun i hi => ?_
    rw [hi, ok_bind] at he
    simp only [ok_bind, SIMDIterator.end_, SIMDMap.end_]
    refine finishes_bind he fun x hx => ?_
    obtain ⟨x, it2⟩ := x
    rcases x with _ | ⟨p, n⟩
    · trivial
    · obtain ⟨hn, -⟩ := hsome p n it2 (by rw [hi, ok_bind, hx])
      simp only []
      rw [umul_ok (scale_le h1 h2 hu hn).1]
      simp only [ok_bind]
      rw [udiv_ok hs]
      simp only [ok_bind]
      exact finishes_bind (hf _ _) fun _ _ => trivial
  · intro p n it' e
    cases hq : (mapRun f st vs).2 with
    | ok st' =>
      rw [mapRun_length f st st' vs hq]
      cases r with
      | ok i =>
        simp only [hq, ok_bind, SIMDIterator.end_, SIMDMap.end_] at e
        cases hx : end_ c i with
        | ok x =>
          obtain ⟨x, it2⟩ := x
          rcases x with _ | ⟨q, m⟩
          · simp [hx] at e
          · obtain ⟨hn, L', hL', h3, h4⟩ := hsome q m it2 (by rw [ok_bind, hx])
            obtain ⟨h5, h6⟩ := scale_le h1 h2 hu hn
            simp only [hx, ok_bind] at e
            rw [umul_ok h5] at e
            simp only [ok_bind] at e
            rw [udiv_ok hs] at e
            simp only [ok_bind] at e
            cases hy : f st' q with
            | ok y =>
              simp only [hy, ok_bind, ok.injEq, Prod.mk.injEq, Option.some.injEq] at e
              obtain ⟨⟨-, rfl⟩, rfl⟩ := e
              exact ⟨h6, L', hL', h3, h4⟩
            | _ => simp [hy] at e
        | _ => simp [hx] at e
      | _ => simp [hq] at e
    | _ => simp [hq] at e
  · intro it' e
    cases hq : (mapRun f st vs).2 with
    | ok st' =>
      rw [mapRun_length f st st' vs hq]
      cases r with
      | ok i =>
        simp only [hq, ok_bind, SIMDIterator.end_, SIMDMap.end_] at e
        cases hx : end_ c i with
        | ok x =>
          obtain ⟨x, it2⟩ := x
          rcases x with _ | ⟨q, m⟩
          · simp only [hx, ok_bind, ok.injEq, Prod.mk.injEq, true_and] at e
            subst e
            exact hnone it2 (by rw [ok_bind, hx])
          · obtain ⟨hn, -⟩ := hsome q m it2 (by rw [ok_bind, hx])
            simp only [hx, ok_bind] at e
            rw [umul_ok (scale_le h1 h2 hu hn).1] at e
            simp only [ok_bind] at e
            rw [udiv_ok hs] at e
            simp only [ok_bind] at e
            cases hy : f st' q with
            | ok y => simp [hy] at e
            | _ => simp [hy] at e
        | _ => simp [hx] at e
      | _ => simp [hq] at e
    | _ => simp [hq] at e

end Map

section ZipMap
variable {Z σ γ β : Type} {w w' : Nat} [SIMDZippedIterator Z γ] [Packable β] {c : Cfg} {R : Nat}

theorem zipMap_pass {z : Z} (h : ZPass c w R z) (h2 : w' * Packable.size β = R)
    (hs : 0 < Packable.size β) (st : σ) (f : FnMut σ γ (Vector β w')) (hf : Calm f) :
    Pass c R (zsimdMap z st f) := by
  obtain ⟨h1, L, vs, r, hr, hfin, hidle, he, hsome, hnone, hL, hv, hu⟩ := h
  have hm := mapRun_finishes hf st vs
  refine ⟨L, _, _, zipMap_runs f hr st, ?_, ?_, ?_, ?_, ?_, hL,
    Nat.le_trans (mapRun_length_le f st vs) hv, hu⟩
  · exact finishes_bind hm fun _ _ => finishes_bind hfin fun _ _ => trivial
  · intro it1 e
    cases hq : (mapRun f st vs).2 with
    | ok st' =>
      cases r with
      | ok i =>
        simp only [hq, ok_bind, ok.injEq] at e
        subst e
        simp only [SIMDIterable.next, SIMDZipMap.next, hidle i rfl, ok_bind]
      | _ => simp [hq] at e
    | _ => simp [hq] at e
  · simp only [bind_assoc]
    refine finishes_bind hm fun st' _ => finishes_bind hfin fun i hi => ?_
    rw [hi, ok_bind] at he
    simp only [ok_bind, SIMDIterator.end_, SIMDZipMap.end_]
    refine finishes_bind he fun x hx => ?_
    obtain ⟨x, it2⟩ := x
    rcases x with _ | ⟨p, n⟩
    · trivial
    · obtain ⟨hn, -⟩ := hsome p n it2 (by rw [hi, ok_bind, hx])
      simp only []
      rw [umul_ok (scale_le (h1 it2) h2 hu hn).1]
      simp only [ok_bind]
      rw [udiv_ok hs]
      simp only [ok_bind]
      exact finishes_bind (hf _ _) fun _ _ => trivial
  · intro p n it' e
    cases hq : (mapRun f st vs).2 with
    | ok st' =>
      rw [mapRun_length f st st' vs hq]
      cases r with
      | ok i =>
        simp only [hq, ok_bind, SIMDIterator.end_, SIMDZipMap.end_] at e
        cases hx : SIMDZippedIterator.end_ c i with
        | ok x =>
          obtain ⟨x, it2⟩ := x
          rcases x with _ | ⟨q, m⟩
          · simp [hx] at e
          · obtain ⟨hn, L', hL', h3, h4⟩ := hsome q m it2 (by rw [ok_bind, hx])
            obtain ⟨h5, h6⟩ := scale_le (h1 it2) h2 hu hn
            simp only [hx, ok_bind] at e
            rw [umul_ok h5] at e
            simp only [ok_bind] at e
            rw [udiv_ok hs] at e
            simp only [ok_bind] at e
            cases hy : f st' q with
            | ok y =>
              simp only [hy, ok_bind, ok.injEq, Prod.mk.injEq, Option.some.injEq] at e
              obtain ⟨⟨-, rfl⟩, rfl⟩ := e
              exact ⟨h6, L', hL', h3, h4⟩
            | _ => simp [hy] at e
        | _ => simp [hx] at e
      | _ => simp [hq] at e
    | _ => simp [hq] at e
  · intro it' e
    cases hq : (mapRun f st vs).2 with
    | ok st' =>
      rw [mapRun_length f st st' vs hq]
      cases r with
      | ok i =>
        simp only [hq, ok_bind, SIMDIterator.end_, SIMDZipMap.end_] at e
        cases hx : SIMDZippedIterator.end_ c i with
        | ok x =>
          obtain ⟨x, it2⟩ := x
          rcases x with _ | ⟨q, m⟩
          · simp only [hx, ok_bind, ok.injEq, Prod.mk.injEq, true_and] at e
            subst e
            exact hnone it2 (by rw [ok_bind, hx])
          · obtain ⟨hn, -⟩ := hsome q m it2 (by rw [ok_bind, hx])
            simp only [hx, ok_bind] at e
            rw [umul_ok (scale_le (h1 it2) h2 hu hn).1] at e
            simp only [ok_bind] at e
            rw [udiv_ok hs] at e
            simp only [ok_bind] at e
            cases hy : f st' q with
            | ok y => simp [hy] at e
            | _ => simp [hy] at e
        | _ => simp [hx] at e
      | _ => simp [hq] at e
    | _ => simp [hq] at e

end ZipMap

/-! ### Sources -/

/-- Fresh iterators over the scalars `l`: slices (src/into_iters.rs) and strides of
sources (src/stride.rs:113). -/
inductive Source (c : Cfg) : (I α : Type) → (w : Nat) → (sz : SIMDSized I) →
    (it : SIMDIterator I α w) → (arr : SIMDArray I α w) → I → List α → Prop where
  | slice {α : Type} {w : Nat} (data : List α) (d : Vector α w) : 0 < w →
    data.length + w < c.usize →
    Source c (SIMDIter (Slice α w) α w) α w inferInstance inferInstance inferInstance
      (simdIter data d) data
  | stride {α : Type} {w : Nat} [Packable α] (data : List α) (s k : Nat) (d : Vector α w) : 0 < w →
    (hk : k < s) → data.length + s * (w + 1) < c.usize →
    Source c (PackedStride (Slice α w) α w) α w inferInstance inferInstance
      inferInstance (strideAt ⟨data⟩ s k d) (strided s k data hk)
  | strideOf {I α : Type} {w : Nat} {sz : SIMDSized I} {it : SIMDIterator I α w}
      {arr : SIMDArray I α w} [Packable α] {x : I} {l : List α} (s k : Nat) (d : Vector α w) :
    Source c I α w sz it arr x l → (hk : k < s) → l.length + s * (w + 1) < c.usize →
    Source c (PackedStride I α w) α w inferInstance inferInstance inferInstance
      (strideAt x s k d) (strided s k l hk)

/-- The second to last iterators of a zip of collections of length `m`, with
vectors of `w` lanes: the list of the rows, and how a vector of rows becomes a
tuple of vectors. -/
inductive SourceRest (c : Cfg) (m w : Nat) : (Q γ δ : Type) → ZipRest Q γ → (Vector δ w → γ) → Q →
    List δ → Prop where
  | nil : SourceRest c m w Unit Unit Unit inferInstance (fun _ => ()) () (List.replicate m ())
  | cons {I α Q γ δ : Type} {sz : SIMDSized I} {it : SIMDIterator I α w}
      {arr : SIMDArray I α w} {zr : ZipRest Q γ} {pack : Vector δ w → γ} {x : I} {r : Q}
      {l : List α} {rows : List δ} :
    Source c I α w sz it arr x l → l.length = m → SourceRest c m w Q γ δ zr pack r rows →
    SourceRest c m w (I × Q) (Vector α w × γ) (α × δ) inferInstance
      (fun v => (v.map Prod.fst, pack (v.map Prod.snd))) (x, r) (l.zip rows)

variable {c : Cfg} {R : Nat}

theorem source_spec {I α : Type} {w : Nat} {sz : SIMDSized I} {it : SIMDIterator I α w}
    {arr : SIMDArray I α w} {x : I} {l : List α} (h : Source c I α w sz it arr x l) :
    0 < w ∧ l.length + w < c.usize ∧ ∃ (d : Vector α w) (S : Nat → I) (more : Nat → Prop),
      RepIter c x l d ∧ Driver c S l d more ∧ S 0 = x := by
  induction h with
  | @slice α w data d hw hu =>
    exact ⟨hw, hu, d, _, _, repIter_simdIter c data 0 d hw hu,
      simdIter_driver (represents_slice c data) d hw hu, rfl⟩
  | @stride α w _ data s k d hw hk hu =>
    have h1 : w ≤ s * w := Nat.le_mul_of_pos_left _ (by omega)
    have h2 : s * (w + 1) = s * w + s := Nat.mul_succ s w
    have h3 := Nat.div_le_self data.length s
    obtain ⟨S, more, hd, h0, -⟩ := strideAt_driver c data hk d hw hu
    exact ⟨hw, by rw [strided_length]; omega, d, S, more, repIter_strideAt c data hk d hw hu, hd, h0⟩
  | @strideOf I α w sz it arr _ x l s k d _ hk hu ih =>
    obtain ⟨hw, -, d0, S, more, hr, -, -⟩ := ih
    have h1 : w ≤ s * w := Nat.le_mul_of_pos_left _ (by omega)
    have h2 : s * (w + 1) = s * w + s := Nat.mul_succ s w
    have h3 := Nat.div_le_self l.length s
    exact ⟨hw, by rw [strided_length]; omega, d, _, _,
      ⟨represents_stride hr.rep hk k d hw hu, rfl, (stride_driver hr.rep hk d hw hu).len 0⟩,
      stride_driver hr.rep hk d hw hu, rfl⟩

theorem sourceRest_spec {m w : Nat} {Q γ δ : Type} {zr : ZipRest Q γ} {pack : Vector δ w → γ} {r : Q}
    {rows : List δ} (h : SourceRest c m w Q γ δ zr pack r rows) :
    rows.length = m ∧ ∃ (lr : LawfulRest Q γ δ w) (dv : Vector δ w),
      lr.pack = pack ∧ lr.Rep c r rows dv := by
  induction h with
  | nil => exact ⟨by simp, inferInstance, Vector.replicate w (), rfl, trivial⟩
  | @cons I α Q γ δ sz it arr zr pack x r l rows hx hl _ ih =>
    obtain ⟨-, -, d, -, -, hr, -, -⟩ := source_spec hx
    obtain ⟨hm, lr, dv, hp, hrep⟩ := ih
    refine ⟨by simp [hl, hm], inferInstance, Vector.zip d dv, ?_, ?_⟩
    · subst hp; rfl
    have e1 : (l.zip rows).map Prod.fst = l := List.map_fst_zip (by omega)
    have e2 : (l.zip rows).map Prod.snd = rows := List.map_snd_zip (by omega)
    have e3 : (Vector.zip d dv).map Prod.fst = d := by ext i hi; simp
    have e4 : (Vector.zip d dv).map Prod.snd = dv := by ext i hi; simp
    refine ⟨?_, ?_⟩
    · simp only [e1, e3]; exact hr
    · simp only [e2, e4]; exact hrep

/-- A zip of sources of one length, as rows. -/
theorem zip_rows {I Q α γ δ : Type} {w : Nat} {sz : SIMDSized I} {it : SIMDIterator I α w}
    {arr : SIMDArray I α w} {zr : ZipRest Q γ} {pack : Vector δ w → γ} {x : I} {r : Q}
    {l : List α} {rows : List δ} {z : Zip I Q}
    (h : Source c I α w sz it arr x l) (hrest : SourceRest c l.length w Q γ δ zr pack r rows)
    (hz : zip c x r = ok z) :
    ∃ (lr : LawfulRest Q γ δ w) (dv : Vector (α × δ) w) (S : Nat → I) (more : Nat → Prop),
      lr.pack = pack ∧ Driver c S ((l.zip rows).map Prod.fst) (dv.map Prod.fst) more ∧
      lr.Rep c r ((l.zip rows).map Prod.snd) (dv.map Prod.snd) ∧ z = ⟨S 0, r⟩ := by
  obtain ⟨hw, hum, d, S, more, -, hd, rfl⟩ := source_spec h
  obtain ⟨hm, lr, dv0, hp, hrep⟩ := sourceRest_spec hrest
  have e1 : (l.zip rows).map Prod.fst = l := List.map_fst_zip (by omega)
  have e2 : (l.zip rows).map Prod.snd = rows := List.map_snd_zip (by omega)
  have e3 : (Vector.zip d dv0).map Prod.fst = d := by ext i hi; simp
  have e4 : (Vector.zip d dv0).map Prod.snd = dv0 := by ext i hi; simp
  have hd' : Driver c S ((l.zip rows).map Prod.fst) ((Vector.zip d dv0).map Prod.fst) more := by
    rw [e1, e3]; exact hd
  have hr' : lr.Rep c r ((l.zip rows).map Prod.snd) ((Vector.zip d dv0).map Prod.snd) := by
    rw [e2, e4]; exact hrep
  refine ⟨lr, Vector.zip d dv0, S, more, hp, hd', hr', ?_⟩
  rw [zip_ok hd' hw hr' 0] at hz
  exact (ok.inj hz).symm

/-- After `n` vectors of `l`, all full vectors or all but the last are out. -/
theorem count_len {α : Type} {w : Nat} (hw : 0 < w) {l : List α} {n : Nat}
    (h : Driver.count w l n) : n ≤ l.length / w ∧ l.length / w ≤ n + 1 ∧
      (l.length ≤ n * w → l.length / w = n) := by
  obtain ⟨h1, h2, h3, h4⟩ := Driver.count_cases hw h
  refine ⟨h1, ?_, fun h5 => (h4 h5).symm⟩
  rcases h with h | ⟨-, h⟩ <;> omega

theorem source_pass {I α : Type} {w : Nat} {sz : SIMDSized I} {it : SIMDIterator I α w}
    {arr : SIMDArray I α w} {x : I} {l : List α} (h : Source c I α w sz it arr x l)
    (hu : (l.length / w + 1) * R < c.usize) : Pass c R x := by
  obtain ⟨hw, -, d, S, more, -, hd, rfl⟩ := source_spec h
  obtain ⟨n, hr, hs, hc⟩ := hd.runs_from hw 0 (Nat.zero_le _)
  simp only [List.drop_zero, Nat.zero_add] at hr hs hc
  obtain ⟨-, h2, h3, -⟩ := Driver.count_cases hw hc
  obtain ⟨h4, h5, h6⟩ := count_len hw hc
  have hl : ((fullWindows w l).take n).length = n := by
    rw [List.length_take, fullWindows_length]; omega
  have he : end_ c (S (n * w)) = if n * w < l.length
      then ok (some (padFront d (l.drop (n * w)), w - (l.length - n * w)), S l.length)
      else ok (none, S (n * w)) := by
    refine hd.end_ _ h2 hs fun hlt => ?_
    by_cases hn : n = 0
    · left; rw [hn, Nat.zero_mul]
    · right
      have := Nat.le_mul_of_pos_left w (Nat.pos_of_ne_zero hn)
      omega
  refine ⟨l.length / w, _, _, hr, trivial, ?_, ?_, ?_, ?_, hd.len 0, by rw [hl]; exact h4, hu⟩
  · intro it1 e
    cases e
    exact hd.next_none _ h2 hs
  · rw [ok_bind, he]; split <;> trivial
  · intro p k it' e
    rw [ok_bind, he] at e
    rw [hl]
    split at e
    · simp only [ok.injEq, Prod.mk.injEq, Option.some.injEq] at e
      obtain ⟨⟨-, rfl⟩, rfl⟩ := e
      exact ⟨by omega, _, hd.len _, h4, h5⟩
    · simp at e
  · intro it' e
    rw [ok_bind, he] at e
    rw [hl]
    split at e
    · simp at e
    · simp only [ok.injEq, Prod.mk.injEq, true_and] at e
      subst e
      rw [hd.len, h6 (by omega)]

/-- A zip of sources of one length. -/
theorem zip_pass {I Q α γ δ : Type} {w : Nat} {sz : SIMDSized I} {it : SIMDIterator I α w}
    {arr : SIMDArray I α w} [Packable α] {zr : ZipRest Q γ} {pack : Vector δ w → γ} {x : I} {r : Q}
    {l : List α} {rows : List δ} {z : Zip I Q} (h : Source c I α w sz it arr x l)
    (hrest : SourceRest c l.length w Q γ δ zr pack r rows)
    (hz : zip c x r = ok z) (hR : w * Packable.size α = R)
    (hu : (l.length / w + 1) * R < c.usize) : ZPass c w R z := by
  obtain ⟨hw, hum, -⟩ := source_spec h
  obtain ⟨lr, dv, S, more, -, hd, hrep, rfl⟩ := zip_rows h hrest hz
  have hrl : (l.zip rows).length = l.length := by simp [(sourceRest_spec hrest).1]
  generalize l.zip rows = rows at *
  obtain ⟨n, hr, hs, hc⟩ := zip_runs_from hd hw hrep (by omega) 0 (Nat.zero_le _)
  simp only [List.drop_zero, Nat.zero_add] at hr hs hc
  obtain ⟨-, h2, h3, -⟩ := Driver.count_cases hw hc
  obtain ⟨h4, h5, h6⟩ := count_len hw hc
  have hl : (((fullWindows w rows).take n).map (packRow Q)).length = n := by
    rw [List.length_map, List.length_take, fullWindows_length]; omega
  have he := zip_end hd hrep (show w < c.usize by omega) (n * w) h2 hs (by
    intro hlt
    by_cases hn : n = 0
    · left; rw [hn, Nat.zero_mul]
    · right
      have := Nat.le_mul_of_pos_left w (Nat.pos_of_ne_zero hn)
      omega)
  have hlen : ∀ p, SIMDZippedIterator.len c (⟨S p, r⟩ : Zip I Q) = ok (rows.length / w) := by
    intro p
    have := hd.len p
    simp only [List.length_map] at this
    exact this
  refine ⟨fun _ => hR, rows.length / w, _, _, hr, trivial, ?_, ?_, ?_, ?_, hlen 0,
    by rw [hl]; exact h4, by rw [hrl]; exact hu⟩
  · intro z1 e
    cases e
    exact (zip_next hd hrep (by omega) _).2 hs h2
  · rw [ok_bind, he]; split <;> trivial
  · intro p k z' e
    rw [ok_bind, he] at e
    rw [hl]
    split at e
    · simp only [ok.injEq, Prod.mk.injEq, Option.some.injEq] at e
      obtain ⟨⟨-, rfl⟩, rfl⟩ := e
      exact ⟨by omega, _, hlen _, h4, h5⟩
    · simp at e
  · intro z' e
    rw [ok_bind, he] at e
    rw [hl]
    split at e
    · simp at e
    · simp only [ok.injEq, Prod.mk.injEq, true_and] at e
      subst e
      rw [hlen, h6 (by omega)]

/-! ### `stride_zip` -/

section StrideZip
variable {I α : Type} {w : Nat} [SIMDSized I] [SIMDIterator I α w]

/-- The vectors two by two. -/
def pairVecs : List (Vector α w) → List (Vector α w × Vector α w)
  | u :: v :: vs => Packed.destrideTwo u v :: pairVecs vs
  | _ => []

/-- The vector without a partner. -/
def oddVec : List (Vector α w) → Option (Vector α w)
  | _ :: _ :: vs => oddVec vs
  | [v] => some v
  | [] => none

theorem pairVecs_length : ∀ vs : List (Vector α w), (pairVecs vs).length = vs.length / 2
  | u :: v :: vs => by
    simp only [pairVecs, List.length_cons, pairVecs_length vs]
    omega
  | [_] => by simp [pairVecs]
  | [] => by simp [pairVecs]

theorem oddVec_none : ∀ vs : List (Vector α w), oddVec vs = none → vs.length % 2 = 0
  | _ :: _ :: vs => by
    intro h
    have := oddVec_none vs h
    simp only [List.length_cons]; omega
  | [_] => by simp [oddVec]
  | [] => by simp

theorem oddVec_some {v : Vector α w} : ∀ vs : List (Vector α w), oddVec vs = some v →
    vs.length % 2 = 1
  | _ :: _ :: vs => by
    intro h
    have := oddVec_some vs h
    simp only [List.length_cons]; omega
  | [_] => by simp
  | [] => by simp [oddVec]

variable [Packable α]

theorem strideZip_pass_runs (b : Nat) (pk : Option (Vector α w)) :
    ∀ (vs : List (Vector α w)) {it : I} {r : Res I}, Runs c it vs r →
    ZRuns c (⟨b, pk, it⟩ : StrideZip I α w) (pairVecs vs)
      (r >>= fun it1 => ok ⟨b, (oddVec vs).or pk, it1⟩)
  | [], it, r, h => by
    cases h with
    | done h =>
      refine ZRuns.done ?_
      simp [SIMDZippedIterator.next, StrideZip.next, h, oddVec]
    | @fail _ r h hr =>
      have e : SIMDZippedIterator.next c (⟨b, pk, it⟩ : StrideZip I α w) = r.castFail := by
        simp only [SIMDZippedIterator.next, StrideZip.next, h]
        cases r with
        | ok a => exact absurd rfl (hr a)
        | _ => rfl
      have := ZRuns.fail e (by
        cases r with
        | ok a => exact absurd rfl (hr a)
        | _ => simp [castFail])
      cases r with
      | ok a => exact absurd rfl (hr a)
      | _ => exact this
  | [v], it, r, h => by
    cases h with
    | @step _ it1 _ _ _ h1 h2 =>
      cases h2 with
      | done h =>
        refine ZRuns.done ?_
        simp [SIMDZippedIterator.next, StrideZip.next, h1, h, oddVec]
      | @fail _ r h hr =>
        have e : SIMDZippedIterator.next c (⟨b, pk, it⟩ : StrideZip I α w) = r.castFail := by
          simp only [SIMDZippedIterator.next, StrideZip.next, h1, ok_bind, h]
          cases r with
          | ok a => exact absurd rfl (hr a)
          | _ => rfl
        have := ZRuns.fail e (by
          cases r with
          | ok a => exact absurd rfl (hr a)
          | _ => simp [castFail])
        cases r with
        | ok a => exact absurd rfl (hr a)
        | _ => exact this
  | u :: v :: vs, it, r, h => by
    cases h with
    | @step _ it1 _ _ _ h1 h2 =>
      cases h2 with
      | @step _ it2 _ _ _ h3 h4 =>
        refine ZRuns.step ?_ (strideZip_pass_runs b pk vs h4)
        simp only [SIMDZippedIterator.next, StrideZip.next, h1, h3, ok_bind]

theorem strideZip_pass {it : I} {z : StrideZip I α w} (h : Pass c R it)
    (hz : strideZip c it = ok z) (hw : w * Packable.size α = R)
    (hu2 : 2 * w < c.usize) : ZPass c w R z := by
  obtain ⟨L, vs, r, hr, hfin, hidle, he, hsome, hnone, hL, hv, hu⟩ := h
  obtain ⟨b, rfl⟩ : ∃ b, z = ⟨b, none, it⟩ := by
    simp only [strideZip] at hz
    cases hp : SIMDIterable.scalarPos c it with
    | ok p =>
      simp only [hp, ok_bind, ok.injEq] at hz
      exact ⟨p, hz.symm⟩
    | _ => simp [hp] at hz
  have hrun := strideZip_pass_runs b none vs hr
  have hpl := pairVecs_length vs
  have key : ∀ y, y = (r >>= fun it1 => ok (⟨b, (oddVec vs).or none, it1⟩ : StrideZip I α w)) >>=
      (fun z1 => SIMDZippedIterator.end_ c z1) →
      y.finishes ∧
      (∀ p n z', y = ok (some (p, n), z') → n ≤ w ∧
        ∃ L', SIMDZippedIterator.len c z' = ok L' ∧ (pairVecs vs).length ≤ L' ∧
          L' ≤ (pairVecs vs).length + 1) ∧
      (∀ z', y = ok (none, z') → SIMDZippedIterator.len c z' = ok (pairVecs vs).length) := by
    rintro y rfl
    cases r with
    | ok i =>
      simp only [ok_bind, SIMDZippedIterator.end_, StrideZip.end_, hidle i rfl, Option.or_none]
      simp only [ok_bind] at he hsome hnone
      cases hx : end_ c i with
      | ok x =>
        obtain ⟨x, it'⟩ := x
        obtain ⟨L', hL', h3, h4⟩ : ∃ L', SIMDIterable.len c it' = ok L' ∧ vs.length ≤ L' ∧
            L' ≤ vs.length + 1 := by
          rcases x with _ | ⟨q, m⟩
          · exact ⟨_, hnone it' hx, Nat.le_refl _, Nat.le_succ _⟩
          · exact (hsome q m it' hx).2
        obtain ⟨e, n, hen, hn⟩ : ∃ e n, x.getD (SIMDIterable.dflt it', 0) = (e, n) ∧ n ≤ w := by
          rcases x with _ | ⟨q, m⟩
          · exact ⟨_, 0, rfl, Nat.zero_le _⟩
          · exact ⟨q, m, rfl, (hsome q m it' hx).1⟩
        have hlen : ∀ pk, SIMDZippedIterator.len c (⟨b, pk, it'⟩ : StrideZip I α w) =
            ok (L' / 2) := by
          intro pk
          simp only [SIMDZippedIterator.len, hL', ok_bind]
        simp only [ok_bind, hen]
        cases ho : oddVec vs with
        | some v =>
          have hodd := oddVec_some vs ho
          simp only []
          rw [uadd_ok (by omega)]
          refine ⟨trivial, ?_, by simp⟩
          intro p k z' h5
          simp only [ok_bind, ok.injEq, Prod.mk.injEq, Option.some.injEq] at h5
          obtain ⟨⟨-, rfl⟩, rfl⟩ := h5
          exact ⟨by omega, _, hlen _, by omega, by omega⟩
        | none =>
          have heven := oddVec_none vs ho
          simp only []
          by_cases h0 : n > 0
          · rw [if_pos h0]
            refine ⟨trivial, ?_, by simp⟩
            intro p k z' h5
            simp only [ok.injEq, Prod.mk.injEq, Option.some.injEq] at h5
            obtain ⟨⟨-, rfl⟩, rfl⟩ := h5
            exact ⟨by omega, _, hlen _, by omega, by omega⟩
          · rw [if_neg h0]
            refine ⟨trivial, by simp, ?_⟩
            intro z' h5
            simp only [ok.injEq, Prod.mk.injEq, true_and] at h5
            obtain rfl := h5
            rw [hlen]
            congr 1
            omega
      | _ =>
        rw [hx] at he
        simp [Res.finishes] at he ⊢
    | _ => simp [Res.finishes] at he ⊢
  obtain ⟨k1, k2, k3⟩ := key _ rfl
  refine ⟨fun _ => hw, L / 2, _, _, hrun, finishes_bind hfin fun _ _ => trivial, ?_, ?_, ?_, ?_, ?_,
    by omega, ?_⟩
  · intro z1 e
    cases r with
    | ok i =>
      simp only [ok_bind, ok.injEq] at e
      subst e
      simp only [SIMDZippedIterator.next, StrideZip.next, hidle i rfl, ok_bind]
    | _ => simp at e
  · exact k1
  · exact k2
  · exact k3
  · simp only [SIMDZippedIterator.len, hL, ok_bind]
  · refine Nat.lt_of_le_of_lt (Nat.mul_le_mul_right R ?_) hu
    omega

end StrideZip

/-! ### Pipelines -/

mutual

/-- Pipelines with registers of `R` bytes: sources, maps, maps of zips. Every
vector has the size of a register; maps to vectors of other sizes: C130. -/
inductive Pipe (c : Cfg) (R : Nat) : (I α : Type) → (w : Nat) → (sz : SIMDSized I) →
    (it : SIMDIterator I α w) → (pk : Packable α) → I → Prop where
  | source {I α : Type} {w : Nat} {sz : SIMDSized I} {it : SIMDIterator I α w}
      {arr : SIMDArray I α w} [pk : Packable α] {x : I} {l : List α} :
    Source c I α w sz it arr x l → w * Packable.size α = R → 0 < Packable.size α →
    (l.length / w + 1) * R < c.usize → Pipe c R I α w sz it pk x
  | map {I α σ β : Type} {w w' : Nat} {sz : SIMDSized I} {it : SIMDIterator I α w}
      {pk : Packable α} [pk' : Packable β] {x : I} (st : σ)
      (f : FnMut σ (Vector α w) (Vector β w')) :
    Pipe c R I α w sz it pk x → Calm f → w' * Packable.size β = R → 0 < Packable.size β → 0 < w' →
    Pipe c R (SIMDMap I σ α w β w') β w' inferInstance inferInstance pk' (simdMap x st f)
  | zipMap {Z γ σ β : Type} {w w' : Nat} {zi : SIMDZippedIterator Z γ} [pk : Packable β] {z : Z}
      (st : σ) (f : FnMut σ γ (Vector β w')) :
    ZipPipe c R w Z γ zi z → Calm f → w' * Packable.size β = R → 0 < Packable.size β → 0 < w' →
    Pipe c R (SIMDZipMap Z σ γ β w') β w' inferInstance inferInstance pk (zsimdMap z st f)

/-- Zips of sources of one length and of one number of lanes, and `stride_zip` of
pipelines. -/
inductive ZipPipe (c : Cfg) (R : Nat) : (w : Nat) → (Z γ : Type) → SIMDZippedIterator Z γ → Z →
    Prop where
  | zip {I Q α γ δ : Type} {w : Nat} {sz : SIMDSized I} {it : SIMDIterator I α w}
      {arr : SIMDArray I α w} [Packable α] {zr : ZipRest Q γ} {pack : Vector δ w → γ} {x : I} {r : Q}
      {l : List α} {rows : List δ} {z : Zip I Q} :
    Source c I α w sz it arr x l → SourceRest c l.length w Q γ δ zr pack r rows →
    zip c x r = ok z → w * Packable.size α = R → (l.length / w + 1) * R < c.usize →
    ZipPipe c R w (Zip I Q) (Vector α w × γ) inferInstance z
  | strideZip {I α : Type} {w : Nat} {sz : SIMDSized I} {it : SIMDIterator I α w} {pk : Packable α}
      {x : I} {z : StrideZip I α w} :
    Pipe c R I α w sz it pk x → strideZip c x = ok z → 2 * w < c.usize →
    ZipPipe c R w (StrideZip I α w) (Vector α w × Vector α w) inferInstance z

end

/-- What is proved by induction about a pipeline. -/
private def GoodPipe (c : Cfg) (R : Nat) (I α : Type) (w : Nat) (sz : SIMDSized I)
    (it : SIMDIterator I α w) (pk : Packable α) (x : I) : Prop :=
  Pass c R x ∧ w * Packable.size α = R ∧ 0 < Packable.size α ∧ 0 < w

private theorem pipe_both :
    (∀ {I α : Type} {w : Nat} {sz : SIMDSized I} {it : SIMDIterator I α w} {pk : Packable α} {x : I},
      Pipe c R I α w sz it pk x → GoodPipe c R I α w sz it pk x) ∧
    (∀ {w : Nat} {Z γ : Type} {zi : SIMDZippedIterator Z γ} {z : Z},
      ZipPipe c R w Z γ zi z → ZPass c w R z) := by
  have key := fun {I α w sz it pk x} => @Pipe.rec c R
    (fun I α w sz it pk x _ => GoodPipe c R I α w sz it pk x) (fun w Z γ zi z _ => ZPass c w R z)
    (fun h hR hs hu => ⟨source_pass h hu, hR, hs, (source_spec h).1⟩)
    (fun st f _ hf h2 hs hw ih => ⟨map_pass ih.1 ih.2.1 h2 hs st f hf, h2, hs, hw⟩)
    (fun st f _ hf h2 hs hw ih => ⟨zipMap_pass ih h2 hs st f hf, h2, hs, hw⟩)
    (fun h hr hz hR hu => zip_pass h hr hz hR hu)
    (fun _ hz hu ih => strideZip_pass ih.1 hz ih.2.1 hu) I α w sz it pk x
  have key2 := fun {w Z γ zi z} => @ZipPipe.rec c R
    (fun I α w sz it pk x _ => GoodPipe c R I α w sz it pk x) (fun w Z γ zi z _ => ZPass c w R z)
    (fun h hR hs hu => ⟨source_pass h hu, hR, hs, (source_spec h).1⟩)
    (fun st f _ hf h2 hs hw ih => ⟨map_pass ih.1 ih.2.1 h2 hs st f hf, h2, hs, hw⟩)
    (fun st f _ hf h2 hs hw ih => ⟨zipMap_pass ih h2 hs st f hf, h2, hs, hw⟩)
    (fun h hr hz hR hu => zip_pass h hr hz hR hu)
    (fun _ hz hu ih => strideZip_pass ih.1 hz ih.2.1 hu) w Z γ zi z
  exact ⟨fun h => key h, fun h => key2 h⟩

section Consumers
variable {I α : Type} {w : Nat} {sz : SIMDSized I} {it : SIMDIterator I α w} {pk : Packable α} {x : I}

/-- **C91**: `simd_reduce`, `simd_do_each` and `scalar_collect` of a pipeline
return or panic, whatever the (returning or panicking) closures; they make at
most `len() + 1` turns. What `scalar_collect` returns is initialised. -/
theorem C91_pipeline (h : Pipe c R I α w sz it pk x) : ∃ L, len c x = ok L ∧
    ∀ fuel, L < fuel →
    (∀ (A σ : Type) (a : A) (st : σ) (f : σ → A → Vector α w → Res (A × σ)), Calm2 f →
      (simdReduce c fuel x a st f).finishes) ∧
    (∀ (σ : Type) (st : σ) (f : FnMut σ (Vector α w) Unit), Calm f →
      (simdDoEach c fuel x st f).finishes) ∧
    (scalarCollect c fuel x).finishes ∧
    (∀ x' out, scalarCollect c fuel x = ok (x', out) → ∀ cell ∈ out, cell ≠ none) ∧
    (∀ buf : List α, (L + 1) * w ≤ buf.length → (scalarFill c fuel x buf).finishes) := by
  obtain ⟨⟨L, vs, r, hr, hfin, -, he, hsome, hnone, hL, hv, hu⟩, hR, hs, hw⟩ := pipe_both.1 h
  have hRw : w ≤ R := by rw [← hR]; exact Nat.le_mul_of_pos_right _ hs
  have huw : (L + 1) * w < c.usize := Nat.lt_of_le_of_lt (Nat.mul_le_mul_left _ hRw) hu
  have e1 : (L + 1) * w = L * w + w := Nat.succ_mul L w
  have hvw : vs.length * w ≤ L * w := Nat.mul_le_mul_right w hv
  have hem : Emits c x vs (r >>= fun it1 => end_ c it1) := ⟨r, hr, rfl⟩
  have hcol : ∀ fuel, L < fuel → scalarCollect c fuel x = _ := fun fuel hf =>
    scalarCollect_emits hem fuel (by omega) hw hL hv huw (fun p n it' e => (hsome p n it' e).1) hnone
  refine ⟨L, hL, fun fuel hf => ⟨?_, ?_, ?_, ?_, ?_⟩⟩
  · intro A σ a st f hc
    simp only [simdReduce, reduceLoop_runs f hr fuel a st (by omega), bind_assoc]
    refine finishes_bind (foldlM_finishes hc vs _) fun p _ => finishes_bind hfin fun i hi => ?_
    rw [hi, ok_bind] at he
    simp only [ok_bind]
    refine finishes_bind he fun y _ => ?_
    obtain ⟨_ | ⟨v, n⟩, it'⟩ := y
    · trivial
    · exact finishes_bind (hc _ _ _) fun _ _ => trivial
  · intro σ st f hc
    simp only [simdDoEach, doEachLoop_runs f hr fuel st (by omega), bind_assoc]
    refine finishes_bind (callAll_finishes hc _ vs) fun p _ => finishes_bind hfin fun i hi => ?_
    rw [hi, ok_bind] at he
    simp only [ok_bind]
    refine finishes_bind he fun y _ => ?_
    obtain ⟨_ | ⟨v, n⟩, it'⟩ := y
    · trivial
    · exact finishes_bind (hc _ _) fun _ _ => trivial
  · rw [hcol fuel hf]
    exact finishes_bind he fun _ _ => trivial
  · intro x' out e cell hcell
    rw [hcol fuel hf] at e
    cases hy : (r >>= fun it1 => end_ c it1) with
    | ok y =>
      simp only [hy, ok_bind, ok.injEq, Prod.mk.injEq] at e
      rw [← e.2, List.mem_map] at hcell
      obtain ⟨a, -, rfl⟩ := hcell
      simp
    | _ => simp [hy] at e
  · intro buf hb
    rw [scalarFill_emits hem fuel buf (by omega) hw (by omega) (by omega)
      (fun p n it' e => ⟨(hsome p n it' e).1, by omega⟩)]
    exact finishes_bind he fun _ _ => trivial

end Consumers

/-- **C91**: zips. -/
theorem C91_zip {w : Nat} {Z γ : Type} {zi : SIMDZippedIterator Z γ} {z : Z}
    (h : ZipPipe c R w Z γ zi z) : ∃ L, SIMDZippedIterator.len c z = ok L ∧ ∀ fuel, L < fuel →
    (∀ (A σ : Type) (a : A) (st : σ) (f : σ → A → γ → Res (A × σ)), Calm2 f →
      (zsimdReduce c fuel z a st f).finishes) ∧
    (∀ (σ : Type) (st : σ) (f : FnMut σ γ Unit), Calm f → (zsimdDoEach c fuel z st f).finishes) := by
  obtain ⟨-, L, vs, r, hr, hfin, -, he, -, -, hL, hv, -⟩ := pipe_both.2 h
  refine ⟨L, hL, fun fuel hf => ⟨?_, ?_⟩⟩
  · intro A σ a st f hc
    simp only [zsimdReduce, zreduceLoop_runs f hr fuel a st (by omega), bind_assoc]
    refine finishes_bind (foldlM_finishes hc vs _) fun p _ => finishes_bind hfin fun i hi => ?_
    rw [hi, ok_bind] at he
    simp only [ok_bind]
    refine finishes_bind he fun y _ => ?_
    obtain ⟨_ | ⟨v, n⟩, it'⟩ := y
    · trivial
    · exact finishes_bind (hc _ _ _) fun _ _ => trivial
  · intro σ st f hc
    simp only [zsimdDoEach, zdoEachLoop_runs f hr fuel st (by omega), bind_assoc]
    refine finishes_bind (callAll_finishes hc _ vs) fun p _ => finishes_bind hfin fun i hi => ?_
    rw [hi, ok_bind] at he
    simp only [ok_bind]
    refine finishes_bind he fun y _ => ?_
    obtain ⟨_ | ⟨v, n⟩, it'⟩ := y
    · trivial
    · exact finishes_bind (hc _ _) fun _ _ => trivial

/-- A pipeline with nested adaptors whose closures panic on some vectors:
`s.simd_iter(d).simd_map(f).stride_zip().simd_map(g)`. -/
example : ∃ (I : Type) (sz : SIMDSized I) (it : SIMDIterator I (BitVec 8) 2) (x : I),
    Pipe release64 2 I (BitVec 8) 2 sz it inferInstance x ∧
    (scalarCollect release64 10 x >>= fun y => ok y.2) = ok [some 4, some 6] := by
  let f : FnMut Unit (Vector (BitVec 8) 2) (Vector (BitVec 8) 2) := fun _ v =>
    if v[0] = 9#8 then panic else ok (v, ())
  let g : FnMut Unit (Vector (BitVec 8) 2 × Vector (BitVec 8) 2) (Vector (BitVec 8) 2) := fun _ v =>
    ok (#v[v.1[0] + v.1[1], v.2[0] + v.2[1]], ())
  let m := simdMap (simdIter [1#8, 2, 3, 4] #v[0, 0]) () f
  have hm : Pipe release64 2 _ (BitVec 8) 2 _ _ inferInstance m :=
    .map () f (.source (.slice [1#8, 2, 3, 4] #v[0, 0] (by decide) (by decide)) rfl (by decide)
      (by decide)) (by intro st v; dsimp only [f]; split <;> trivial) rfl (by decide) (by decide)
  have hz : strideZip release64 m = ok ⟨0, none, m⟩ := rfl
  exact ⟨_, _, _, _, .zipMap () g (.strideZip hm hz (by decide)) (by intro st v; trivial) rfl
    (by decide) (by decide), by decide +kernel⟩

/-- A pass which panics because its closure does. -/
example : ∃ (x : SIMDIter (Slice (BitVec 8) 2) (BitVec 8) 2),
    Pipe release64 2 _ (BitVec 8) 2 inferInstance inferInstance inferInstance x ∧
    simdDoEach release64 10 x () (fun _ v => if v[0] = 3#8 then panic else ok ((), ())) = panic :=
  ⟨simdIter [1#8, 2, 3, 4] #v[0, 0], .source (.slice _ _ (by decide) (by decide)) rfl (by decide)
    (by decide), by decide +kernel⟩

end Faster
