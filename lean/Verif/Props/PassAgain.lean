import Verif.Props.PassSafe
import Verif.Props.DebugCaught
import Verif.Props.AnyIterMore
/-
C145: a pipeline which is used again after panics were caught, in release builds as well as in
debug builds.

The pipelines and the limits of their sizes are those of C91. In release builds there are no
assertions which would stop an iterator left in an unexpected state, so the proof has to show which
states a panic can leave.
-/
namespace Faster
open Res SIMDSized SIMDIterable SIMDIterator MutM

/-- What `scalar_collect` can return: scalars, and after them uninitialised cells only if there are
as many cells as in `len` vectors. -/
def Cells {α : Type} (L w : Nat) (l : List (Option α)) : Prop :=
  ∃ (vals : List α) (k : Nat), l = vals.map some ++ List.replicate k none ∧
    (k = 0 ∨ l.length = L * w) ∧ l.length ≤ (L + 1) * w

/-- What is claimed about a set `P` of states of a pipeline: every call on a state in `P` returns or
panics, and leaves a state in `P` in both cases. `end` is only claimed for states in which `next`
has come to its end, and the consumers for closures which return or panic. -/
structure Reusable {I α : Type} {w : Nat} [SIMDSized I] [SIMDIterator I α w] [Packable α]
    [Unwind I α w] [Closures I] (c : Cfg) (L : Nat) (P : I → Prop) : Prop where
  len : ∀ x, P x → len c x = ok L
  next : ∀ x, P x → (Unwind.nextU c x).1.finishes ∧ P (Unwind.nextU c x).2
  end_ : ∀ x, P x → SIMDIterable.next c x = ok (none, x) →
    (Unwind.endU c x).1.finishes ∧ P (Unwind.endU c x).2
  reduce : ∀ x, P x → ∀ (fuel : Nat) (A σ : Type) (a : A) (st : σ)
    (f : σ → A → Vector α w → Res (A × σ)), L < fuel → Calm2 f →
    (simdReduceU c fuel a st f x).1.finishes ∧ P (simdReduceU c fuel a st f x).2
  do_each : ∀ x, P x → ∀ (fuel : Nat) (σ : Type) (st : σ) (f : FnMut σ (Vector α w) Unit),
    L < fuel → Calm f → (simdDoEachU c fuel st f x).1.finishes ∧ P (simdDoEachU c fuel st f x).2
  collect : ∀ x, P x → ∀ fuel, L < fuel →
    (scalarCollectU c fuel x).1.finishes ∧ P (scalarCollectU c fuel x).2
  cells : ∀ x, P x → ∀ fuel, L < fuel → ∀ l, (scalarCollectU c fuel x).1 = ok l →
    Cells L w l
  fill : ∀ x, P x → ∀ (fuel : Nat) (buf : List α), L < fuel → (L + 1) * w ≤ buf.length →
    (scalarFillU c fuel (x, buf)).1.finishes ∧ P (scalarFillU c fuel (x, buf)).2.1
  captured : ∀ x y, P x → Closures.differ x y → P y

/-- The same for a zip. -/
structure ReusableZip {Z γ : Type} [SIMDZippedIterator Z γ] [UnwindZ Z γ] [Closures Z] (c : Cfg)
    (L : Nat) (P : Z → Prop) : Prop where
  len : ∀ z, P z → SIMDZippedIterator.len c z = ok L
  next : ∀ z, P z → (UnwindZ.nextU c z).1.finishes ∧ P (UnwindZ.nextU c z).2
  end_ : ∀ z, P z → SIMDZippedIterator.next c z = ok (none, z) →
    (UnwindZ.endU c z).1.finishes ∧ P (UnwindZ.endU c z).2
  reduce : ∀ z, P z → ∀ (fuel : Nat) (A σ : Type) (a : A) (st : σ)
    (f : σ → A → γ → Res (A × σ)), L < fuel → Calm2 f →
    (zsimdReduceU c fuel a st f z).1.finishes ∧ P (zsimdReduceU c fuel a st f z).2
  do_each : ∀ z, P z → ∀ (fuel : Nat) (σ : Type) (st : σ) (f : FnMut σ γ Unit),
    L < fuel → Calm f → (zsimdDoEachU c fuel st f z).1.finishes ∧ P (zsimdDoEachU c fuel st f z).2
  captured : ∀ x y, P x → Closures.differ x y → P y

mutual

/-- Pipelines with registers of `R` bytes, as `Pipe`, with what the iterators keep in a panic. -/
inductive PipeU (c : Cfg) (R : Nat) : (I α : Type) → (w : Nat) → (sz : SIMDSized I) →
    (it : SIMDIterator I α w) → (pk : Packable α) → Unwind I α w → Closures I → I → Prop where
  | source {I α : Type} {w : Nat} {sz : SIMDSized I} {it : SIMDIterator I α w}
      {arr : SIMDArray I α w} {uw : Unwind I α w} {cl : Closures I} [PlainUnwind I α w]
      [pk : Packable α] {x : I} {l : List α} :
    Source c I α w sz it arr x l → w * Packable.size α = R → 0 < Packable.size α →
    (l.length / w + 3) * R < c.usize → PipeU c R I α w sz it pk uw cl x
  | map {I α σ β : Type} {w w' : Nat} {sz : SIMDSized I} {it : SIMDIterator I α w}
      {pk : Packable α} {uw : Unwind I α w} {cl : Closures I} [pk' : Packable β] {x : I} (st : σ)
      (f : FnMut σ (Vector α w) (Vector β w')) :
    PipeU c R I α w sz it pk uw cl x → Calm f → w' * Packable.size β = R →
    0 < Packable.size β → 0 < w' →
    PipeU c R (SIMDMap I σ α w β w') β w' inferInstance inferInstance pk' inferInstance
      inferInstance (simdMap x st f)
  | zipMap {Z γ σ β : Type} {w w' : Nat} {zi : SIMDZippedIterator Z γ} {uw : UnwindZ Z γ}
      {cl : Closures Z} [pk : Packable β] {z : Z} (st : σ) (f : FnMut σ γ (Vector β w')) :
    ZipPipeU c R w Z γ zi uw cl z → Calm f → w' * Packable.size β = R → 0 < Packable.size β →
    0 < w' →
    PipeU c R (SIMDZipMap Z σ γ β w') β w' inferInstance inferInstance pk inferInstance
      inferInstance (zsimdMap z st f)

/-- Zips of sources of one length and of one number of lanes, and `stride_zip` of pipelines. -/
inductive ZipPipeU (c : Cfg) (R : Nat) : (w : Nat) → (Z γ : Type) → SIMDZippedIterator Z γ →
    UnwindZ Z γ → Closures Z → Z → Prop where
  | zip {I Q α γ δ : Type} {w : Nat} {sz : SIMDSized I} {it : SIMDIterator I α w}
      {arr : SIMDArray I α w} {uw : Unwind I α w} {cl : Closures I} [PlainUnwind I α w]
      [Packable α] {zr : ZipRest Q γ} {pack : Vector δ w → γ} {x : I} {r : Q}
      {l : List α} {rows : List δ} {z : Zip I Q} :
    Source c I α w sz it arr x l → SourceRest c l.length w Q γ δ zr pack r rows →
    zip c x r = ok z → w * Packable.size α = R → (l.length / w + 3) * R < c.usize →
    ZipPipeU c R w (Zip I Q) (Vector α w × γ) inferInstance inferInstance inferInstance z
  | strideZip {I α : Type} {w : Nat} {sz : SIMDSized I} {it : SIMDIterator I α w} {pk : Packable α}
      {uw : Unwind I α w} {cl : Closures I} {x : I} {z : StrideZip I α w} :
    PipeU c R I α w sz it pk uw cl x → strideZip c x = ok z → 2 * w < c.usize →
    ZipPipeU c R w (StrideZip I α w) (Vector α w × Vector α w) inferInstance inferInstance
      inferInstance z

end

/-! ### Rules for code with places -/

/-- The code returned with `Q` or panicked with `E`. -/
def Settles {S r : Type} (p : Res r × S) (Q : r → S → Prop) (E : S → Prop) : Prop :=
  match p.1 with
  | ok a => Q a p.2
  | Res.panic => E p.2
  | _ => False

/-- `Q` holds if the code returned and `E` otherwise. -/
def After {S r : Type} (p : Res r × S) (Q : r → S → Prop) (E : S → Prop) : Prop :=
  match p.1 with
  | ok a => Q a p.2
  | _ => E p.2

section Rules
variable {S r r' : Type} {Q : r → S → Prop} {Q' : r' → S → Prop} {E : S → Prop}

theorem settles_bind {x : MutM S r} {f : r → MutM S r'} {s : S} (h : Settles (x s) Q E)
    (hf : ∀ a t, x s = (ok a, t) → Q a t → Settles (f a t) Q' E) : Settles ((x >>= f) s) Q' E := by
  have e : (x >>= f) s = MutM.bind x f s := rfl
  rw [e]
  unfold MutM.bind
  rcases h2 : x s with ⟨y, t⟩
  rw [h2] at h
  cases y with
  | ok a => exact hf a t h2 h
  | _ => exact h

theorem after_bind {x : MutM S r} {f : r → MutM S r'} {s : S} (h : After (x s) Q E)
    (hf : ∀ a t, x s = (ok a, t) → Q a t → After (f a t) Q' E) : After ((x >>= f) s) Q' E := by
  have e : (x >>= f) s = MutM.bind x f s := rfl
  rw [e]
  unfold MutM.bind
  rcases h2 : x s with ⟨y, t⟩
  rw [h2] at h
  cases y with
  | ok a => exact hf a t h2 h
  | _ => exact h

theorem settles_lift {x : Res r} {s : S} (h : x.finishes) (hq : ∀ a, x = ok a → Q a s) (he : E s) :
    Settles (MutM.lift x s) Q E := by
  cases x with
  | ok a => exact hq a rfl
  | panic => exact he
  | ub => exact h
  | hang => exact h

theorem after_lift {x : Res r} {s : S} (hq : ∀ a, x = ok a → Q a s) (he : E s) :
    After (MutM.lift x s) Q E := by
  cases x with
  | ok a => exact hq a rfl
  | _ => exact he

theorem settles_ok {p : Res r × S} {a : r} {t : S} (h : p = (ok a, t)) (hq : Q a t) :
    Settles p Q E := by
  subst h; exact hq

theorem Settles.mono {p : Res r × S} {Q1 : r → S → Prop} {E1 : S → Prop} (h : Settles p Q E)
    (hq : ∀ a, p = (ok a, p.2) → Q a p.2 → Q1 a p.2) (he : E p.2 → E1 p.2) : Settles p Q1 E1 := by
  rcases p with ⟨y, t⟩
  cases y with
  | ok a => exact hq a rfl h
  | panic => exact he h
  | _ => exact h

theorem Settles.after {p : Res r × S} (h : Settles p Q E) : After p Q E := by
  rcases p with ⟨y, t⟩
  cases y with
  | ok a => exact h
  | panic => exact h
  | _ => exact h.elim

theorem Settles.finishes {p : Res r × S} (h : Settles p Q E) : p.1.finishes := by
  rcases p with ⟨y, t⟩
  cases y with
  | ok a => trivial
  | panic => trivial
  | _ => exact h.elim

theorem After.keeps {p : Res r × S} (h : After p Q E) (hq : ∀ a t, Q a t → E t) : E p.2 := by
  rcases p with ⟨y, t⟩
  cases y with
  | ok a => exact hq a t h
  | _ => exact h

theorem finishes_obs {x : MutM S r} {s : S} (h : (obs x s).finishes) : (x s).1.finishes := by
  unfold obs at h
  rcases h2 : x s with ⟨y, t⟩
  rw [h2] at h
  cases y with
  | ok a => trivial
  | panic => trivial
  | _ => exact h

end Rules

/-! ### What is proved about a pipeline -/

/-- An invariant `P` of the states of a pipeline, with the number `m` of vectors still to come at
most, and the states `Idle` in which no further vector comes. -/
structure Steady {I α : Type} {w : Nat} [SIMDSized I] [SIMDIterator I α w] [Packable α]
    [Unwind I α w] [Closures I] (c : Cfg) (L : Nat) (P Idle : I → Prop) (m : I → Nat) : Prop where
  next : ∀ x, P x → Settles (Unwind.nextU c x)
    (fun r y => P y ∧ (r = none → Idle y) ∧ (∀ v, r = some v → m y < m x)) P
  idle : ∀ x, P x → Idle x → Unwind.nextU c x = (ok none, x)
  end_ : ∀ x, P x → Idle x → Settles (Unwind.endU c x)
    (fun r y => P y ∧ ∀ p n, r = some (p, n) → n ≤ w) P
  len : ∀ x, P x → len c x = ok L
  fits : ∀ x, P x → m x ≤ L
  differ : ∀ x y, P x → Closures.differ x y → P y
  lawful : LawfulUnwind I α w

/-- The same for a zip whose first iterator has vectors of `w` scalars and `R` bytes. -/
structure SteadyZip {Z γ : Type} [SIMDZippedIterator Z γ] [UnwindZ Z γ] [Closures Z] (c : Cfg)
    (w R L : Nat) (P Idle : Z → Prop) (m : Z → Nat) : Prop where
  next : ∀ x, P x → Settles (UnwindZ.nextU c x)
    (fun r y => P y ∧ (r = none → Idle y) ∧ (∀ v, r = some v → m y < m x)) P
  idle : ∀ x, P x → Idle x → UnwindZ.nextU c x = (ok none, x)
  end_ : ∀ x, P x → Idle x → Settles (UnwindZ.endU c x)
    (fun r y => P y ∧ ∀ p n, r = some (p, n) → n ≤ w) P
  len : ∀ x, P x → SIMDZippedIterator.len c x = ok L
  fits : ∀ x, P x → m x ≤ L
  differ : ∀ x y, P x → Closures.differ x y → P y
  size : ∀ z : Z, w * SIMDZippedIterator.size z = R
  lawful : LawfulUnwindZ Z γ

variable {c : Cfg} {R L : Nat}

section Map
variable {I σ α β : Type} {w w' : Nat} [SIMDSized I] [SIMDIterator I α w] [Packable α] [Packable β]
  [Unwind I α w] [Closures I]

omit [SIMDSized I] [SIMDIterator I α w] [Packable α] [Packable β] [Unwind I α w] [Closures I] in
theorem settles_mapOnIter {r : Type} {x : MutM I r} {Q : r → I → Prop} {E : I → Prop}
    {m : SIMDMap I σ α w β w'} (h : Settles (x m.iter) Q E) :
    Settles (SIMDMap.onIter x m) (fun a m' => Q a m'.iter ∧ m'.func = m.func)
      (fun m' => E m'.iter ∧ m'.func = m.func) := by
  unfold SIMDMap.onIter
  rcases h2 : x m.iter with ⟨y, t⟩
  rw [h2] at h
  cases y with
  | ok a => exact ⟨h, rfl⟩
  | panic => exact ⟨h, rfl⟩
  | _ => exact h

omit [SIMDSized I] [SIMDIterator I α w] [Packable α] [Packable β] [Unwind I α w] [Closures I] in
theorem settles_mapCall {m : SIMDMap I σ α w β w'} (v : Vector α w) (hf : Calm m.func) :
    Settles (SIMDMap.callU v m) (fun _ m' => m'.iter = m.iter ∧ m'.func = m.func)
      (fun m' => m'.iter = m.iter ∧ m'.func = m.func) := by
  unfold SIMDMap.callU MutM.call
  have := hf m.st v
  simp only []
  cases h : m.func m.st v with
  | ok p => exact ⟨rfl, rfl⟩
  | panic => exact ⟨rfl, rfl⟩
  | ub => rw [h] at this; exact this.elim
  | hang => rw [h] at this; exact this.elim

theorem steady_map {P Idle : I → Prop} {m : I → Nat} (h : Steady c L P Idle m)
    (h1 : w * Packable.size α = R) (h2 : w' * Packable.size β = R) (hs : 0 < Packable.size β)
    (hu : (L + 1) * R < c.usize) :
    Steady c L (fun x : SIMDMap I σ α w β w' => P x.iter ∧ Calm x.func) (fun x => Idle x.iter)
      (fun x => m x.iter) := by
  obtain ⟨hn, hi, he, hl, hfit, hd, hlaw⟩ := h
  refine ⟨?_, ?_, ?_, fun x hx => hl _ hx.1, fun x hx => hfit _ hx.1,
    fun x y hx e => ⟨hd _ _ hx.1 e.1, e.2 ▸ hx.2⟩, inferInstance⟩
  · intro x hx
    refine settles_bind ((settles_mapOnIter (hn _ hx.1)).mono
      (Q1 := fun r y => (P y.iter ∧ (r = none → Idle y.iter) ∧
        (∀ v, r = some v → m y.iter < m x.iter)) ∧ Calm y.func)
      (fun r _ h => ⟨h.1, h.2 ▸ hx.2⟩) (fun h => ⟨h.1, h.2 ▸ hx.2⟩)) ?_
    rintro r y - ⟨⟨k1, k2, k3⟩, k4⟩
    cases r with
    | none => exact ⟨⟨k1, k4⟩, fun _ => k2 rfl, fun v e => by cases e⟩
    | some v =>
      refine settles_bind ((settles_mapCall v k4).mono
        (Q1 := fun _ z => (P z.iter ∧ Calm z.func) ∧ m z.iter < m x.iter)
        (fun r _ h => ⟨⟨h.1 ▸ k1, h.2 ▸ k4⟩, h.1 ▸ k3 v rfl⟩)
        (fun h => ⟨h.1 ▸ k1, h.2 ▸ k4⟩)) ?_
      rintro u z - ⟨k5, k6⟩
      exact ⟨k5, fun e => (by cases e), fun _ _ => k6⟩
  · intro x hx hidle
    have e := hi _ hx.1 hidle
    have : SIMDMap.onIter (Unwind.nextU c) x = (ok none, x) := by
      unfold SIMDMap.onIter; rw [e]
    show ((SIMDMap.onIter (Unwind.nextU c) : MutM (SIMDMap I σ α w β w') _) >>= _) x = _
    show MutM.bind _ _ x = _
    unfold MutM.bind
    rw [this]; rfl
  · intro x hx hidle
    refine settles_bind ((settles_mapOnIter (he _ hx.1 hidle)).mono
      (Q1 := fun r y => (P y.iter ∧ (∀ p n, r = some (p, n) → n ≤ w)) ∧ Calm y.func)
      (fun r _ h => ⟨h.1, h.2 ▸ hx.2⟩) (fun h => ⟨h.1, h.2 ▸ hx.2⟩)) ?_
    rintro r y - ⟨⟨k1, k2⟩, k4⟩
    rcases r with _ | ⟨v, n⟩
    · exact ⟨⟨k1, k4⟩, fun _ _ e => by cases e⟩
    · obtain ⟨k5, k6⟩ := scale_le h1 h2 hu (k2 v n rfl)
      have e : (do udiv (← umul c n (Packable.size α)) (Packable.size β) : Res Nat) =
          ok (n * Packable.size α / Packable.size β) := by
        rw [umul_ok k5, ok_bind, udiv_ok hs]
      simp only [e]
      refine settles_bind (Q := fun a z => z = y ∧ a = n * Packable.size α / Packable.size β)
        (settles_ok (p := MutM.lift _ y) rfl ⟨rfl, rfl⟩) ?_
      rintro a z - ⟨rfl, rfl⟩
      refine settles_bind ((settles_mapCall v k4).mono
        (Q1 := fun _ z => (P z.iter ∧ Calm z.func))
        (fun r _ h => ⟨h.1 ▸ k1, h.2 ▸ k4⟩) (fun h => ⟨h.1 ▸ k1, h.2 ▸ k4⟩)) ?_
      intro u z _ k7
      refine ⟨k7, fun p k e => ?_⟩
      cases e
      exact k6

end Map

section ZipMap
variable {Z σ γ β : Type} {w w' : Nat} [SIMDZippedIterator Z γ] [Packable β] [UnwindZ Z γ]
  [Closures Z]

omit [SIMDZippedIterator Z γ] [Packable β] [UnwindZ Z γ] [Closures Z] in
theorem settles_zmapOnIter {r : Type} {x : MutM Z r} {Q : r → Z → Prop} {E : Z → Prop}
    {m : SIMDZipMap Z σ γ β w'} (h : Settles (x m.iter) Q E) :
    Settles (SIMDZipMap.onIter x m) (fun a m' => Q a m'.iter ∧ m'.func = m.func)
      (fun m' => E m'.iter ∧ m'.func = m.func) := by
  unfold SIMDZipMap.onIter
  rcases h2 : x m.iter with ⟨y, t⟩
  rw [h2] at h
  cases y with
  | ok a => exact ⟨h, rfl⟩
  | panic => exact ⟨h, rfl⟩
  | _ => exact h

omit [SIMDZippedIterator Z γ] [Packable β] [UnwindZ Z γ] [Closures Z] in
theorem settles_zmapCall {m : SIMDZipMap Z σ γ β w'} (v : γ) (hf : Calm m.func) :
    Settles (SIMDZipMap.callU v m) (fun _ m' => m'.iter = m.iter ∧ m'.func = m.func)
      (fun m' => m'.iter = m.iter ∧ m'.func = m.func) := by
  unfold SIMDZipMap.callU MutM.call
  have := hf m.st v
  simp only []
  cases h : m.func m.st v with
  | ok p => exact ⟨rfl, rfl⟩
  | panic => exact ⟨rfl, rfl⟩
  | ub => rw [h] at this; exact this.elim
  | hang => rw [h] at this; exact this.elim

theorem steady_zipMap {P Idle : Z → Prop} {m : Z → Nat} (h : SteadyZip c w R L P Idle m)
    (h2 : w' * Packable.size β = R) (hs : 0 < Packable.size β) (hu : (L + 1) * R < c.usize) :
    Steady c L (fun x : SIMDZipMap Z σ γ β w' => P x.iter ∧ Calm x.func) (fun x => Idle x.iter)
      (fun x => m x.iter) := by
  obtain ⟨hn, hi, he, hl, hfit, hd, h1, hlaw⟩ := h
  refine ⟨?_, ?_, ?_, fun x hx => hl _ hx.1, fun x hx => hfit _ hx.1,
    fun x y hx e => ⟨hd _ _ hx.1 e.1, e.2 ▸ hx.2⟩, inferInstance⟩
  · intro x hx
    refine settles_bind ((settles_zmapOnIter (hn _ hx.1)).mono
      (Q1 := fun r y => (P y.iter ∧ (r = none → Idle y.iter) ∧
        (∀ v, r = some v → m y.iter < m x.iter)) ∧ Calm y.func)
      (fun r _ h => ⟨h.1, h.2 ▸ hx.2⟩) (fun h => ⟨h.1, h.2 ▸ hx.2⟩)) ?_
    rintro r y - ⟨⟨k1, k2, k3⟩, k4⟩
    cases r with
    | none => exact ⟨⟨k1, k4⟩, fun _ => k2 rfl, fun v e => by cases e⟩
    | some v =>
      refine settles_bind ((settles_zmapCall v k4).mono
        (Q1 := fun _ z => (P z.iter ∧ Calm z.func) ∧ m z.iter < m x.iter)
        (fun r _ h => ⟨⟨h.1 ▸ k1, h.2 ▸ k4⟩, h.1 ▸ k3 v rfl⟩)
        (fun h => ⟨h.1 ▸ k1, h.2 ▸ k4⟩)) ?_
      rintro u z - ⟨k5, k6⟩
      exact ⟨k5, fun e => (by cases e), fun _ _ => k6⟩
  · intro x hx hidle
    have e := hi _ hx.1 hidle
    have : SIMDZipMap.onIter (UnwindZ.nextU c) x = (ok none, x) := by
      unfold SIMDZipMap.onIter; rw [e]
    show ((SIMDZipMap.onIter (UnwindZ.nextU c) : MutM (SIMDZipMap Z σ γ β w') _) >>= _) x = _
    show MutM.bind _ _ x = _
    unfold MutM.bind
    rw [this]; rfl
  · intro x hx hidle
    refine settles_bind ((settles_zmapOnIter (he _ hx.1 hidle)).mono
      (Q1 := fun r y => (P y.iter ∧ (∀ p n, r = some (p, n) → n ≤ w)) ∧ Calm y.func)
      (fun r _ h => ⟨h.1, h.2 ▸ hx.2⟩) (fun h => ⟨h.1, h.2 ▸ hx.2⟩)) ?_
    rintro r y - ⟨⟨k1, k2⟩, k4⟩
    rcases r with _ | ⟨v, n⟩
    · exact ⟨⟨k1, k4⟩, fun _ _ e => by cases e⟩
    · obtain ⟨k5, k6⟩ := scale_le (h1 y.iter) h2 hu (k2 v n rfl)
      have e : (do udiv (← umul c n (SIMDZippedIterator.size y.iter)) (Packable.size β) : Res Nat) =
          ok (n * SIMDZippedIterator.size y.iter / Packable.size β) := by
        rw [umul_ok k5, ok_bind, udiv_ok hs]
      refine settles_bind (Q := fun a z => a = y ∧ z = y) (settles_ok (p := MutM.get y) rfl ⟨rfl, rfl⟩) ?_
      rintro a z - ⟨rfl, rfl⟩
      simp only [e]
      refine settles_bind
        (Q := fun b y => y = z ∧ b = n * SIMDZippedIterator.size z.iter / Packable.size β)
        (settles_ok (p := MutM.lift _ z) rfl ⟨rfl, rfl⟩) ?_
      rintro b y - ⟨rfl, rfl⟩
      refine settles_bind ((settles_zmapCall v k4).mono
        (Q1 := fun _ z => (P z.iter ∧ Calm z.func))
        (fun r _ h => ⟨h.1 ▸ k1, h.2 ▸ k4⟩) (fun h => ⟨h.1 ▸ k1, h.2 ▸ k4⟩)) ?_
      intro u z _ k7
      refine ⟨k7, fun p k e => ?_⟩
      cases e
      exact k6

end ZipMap

section StrideZip
variable {I α : Type} {w : Nat} [SIMDSized I] [SIMDIterator I α w] [Packable α] [Unwind I α w]
  [Closures I]

omit [SIMDSized I] [SIMDIterator I α w] [Packable α] [Unwind I α w] [Closures I] in
theorem settles_szOnIter {r : Type} {x : MutM I r} {Q : r → I → Prop} {E : I → Prop}
    {z : StrideZip I α w} (h : Settles (x z.iter) Q E) :
    Settles (StrideZip.onIter x z) (fun a z' => Q a z'.iter) (fun z' => E z'.iter) := by
  unfold StrideZip.onIter
  rcases h2 : x z.iter with ⟨y, t⟩
  rw [h2] at h
  cases y with
  | ok a => exact h
  | panic => exact h
  | _ => exact h

theorem steady_strideZip {P Idle : I → Prop} {m : I → Nat} (h : Steady c L P Idle m)
    (hR : w * Packable.size α = R) (hu2 : 2 * w < c.usize) :
    SteadyZip c w R (L / 2) (fun z : StrideZip I α w => P z.iter) (fun z => Idle z.iter)
      (fun z => m z.iter / 2) := by
  obtain ⟨hn, hi, he, hl, hfit, hd, hlaw⟩ := h
  refine ⟨?_, ?_, ?_, ?_, fun z hz => Nat.div_le_div_right (hfit _ hz), fun x y hx e => hd _ _ hx e.2.2,
    fun _ => hR, inferInstance⟩
  · intro x hx
    refine settles_bind (settles_szOnIter (hn _ hx)) ?_
    rintro r y - ⟨k1, k2, k3⟩
    cases r with
    | none => exact ⟨k1, fun _ => k2 rfl, fun v e => by cases e⟩
    | some v =>
      refine settles_bind (settles_szOnIter (hn _ k1)) ?_
      rintro r z - ⟨k4, k5, k6⟩
      cases r with
      | none => exact ⟨k4, fun _ => k5 rfl, fun v e => by cases e⟩
      | some u =>
        refine ⟨k4, fun e => (by cases e), fun _ _ => ?_⟩
        have := k3 v rfl
        have := k6 u rfl
        simp only [Pure.pure, MutM.pure]
        omega
  · intro x hx hidle
    have e := hi _ hx hidle
    have : StrideZip.onIter (Unwind.nextU c) x = (ok none, x) := by
      unfold StrideZip.onIter; rw [e]
    show ((StrideZip.onIter (Unwind.nextU c) : MutM (StrideZip I α w) _) >>= _) x = _
    show MutM.bind _ _ x = _
    unfold MutM.bind
    rw [this]; rfl
  · intro x hx hidle
    have e := hi _ hx hidle
    have e1 : StrideZip.onIter (Unwind.nextU c) x = (ok none, x) := by
      unfold StrideZip.onIter; rw [e]
    refine settles_bind (Q := fun r z => r = none ∧ z = x) (settles_ok e1 ⟨rfl, rfl⟩) ?_
    rintro r z - ⟨rfl, rfl⟩
    refine settles_bind (settles_szOnIter (he _ hx hidle)) ?_
    rintro e y - ⟨k1, k2⟩
    refine settles_bind (Q := fun a t => a = y ∧ t = y) (settles_ok (p := MutM.get y) rfl ⟨rfl, rfl⟩) ?_
    rintro a t - ⟨rfl, rfl⟩
    obtain ⟨p, n, hen, hnw⟩ : ∃ p n, e.getD (SIMDIterable.dflt t.iter, 0) = (p, n) ∧ n ≤ w := by
      rcases e with _ | ⟨p, n⟩
      · exact ⟨_, 0, rfl, Nat.zero_le _⟩
      · exact ⟨p, n, rfl, k2 p n rfl⟩
    have hadd : uadd c w n = ok (w + n) := uadd_ok (by omega)
    simp only [hen, hadd]
    cases hp : t.peek with
    | some v =>
      simp only []
      refine settles_bind (Q := fun _ t => P t.iter) (settles_ok (p := MutM.modify _ t) rfl k1) ?_
      intro _ t _ k3
      refine settles_bind (Q := fun b t => P t.iter ∧ b = w + n)
        (settles_ok (p := MutM.lift _ t) rfl ⟨k3, rfl⟩) ?_
      rintro b t - ⟨k3, rfl⟩
      refine ⟨k3, fun q k e => ?_⟩
      cases e
      omega
    | none =>
      simp only []
      by_cases h0 : n > 0
      · rw [if_pos h0]
        refine ⟨k1, fun q k e => ?_⟩
        cases e
        omega
      · rw [if_neg h0]
        exact ⟨k1, fun q k e => by cases e⟩
  · intro z hz
    simp only [SIMDZippedIterator.len, hl _ hz, ok_bind]

end StrideZip

/-! ### Sources -/

/-- The positions at which a pass over `n` scalars can be interrupted. -/
def Stop (w n p : Nat) : Prop := p ≤ n ∧ (p < n → p = 0 ∨ w < n)

theorem stop_vecs {w n p : Nat} (hw : 0 < w) (h : p + w ≤ n) : (n - (p + w)) / w < (n - p) / w := by
  rw [show n - p = (n - (p + w)) + w by omega, Nat.add_div_right _ hw]
  omega

theorem steady_source {I α : Type} {w : Nat} [SIMDSized I] [SIMDIterator I α w] [Packable α]
    [Unwind I α w] [Closures I] [PlainUnwind I α w] {S : Nat → I} {l : List α} {d : Vector α w}
    {more : Nat → Prop} (hd : Driver c S l d more) (hw : 0 < w) :
    ∃ m, Steady c (l.length / w) (fun x => ∃ p, x = S p ∧ Stop w l.length p)
      (fun x => ∃ p, x = S p ∧ Stop w l.length p ∧ ¬ more p) m := by
  classical
  have hnx : ∀ x : I, Unwind.nextU c x = MutM.call (SIMDIterable.next c) x := fun x => by
    rw [PlainUnwind.next_call]
  have hen : ∀ x : I, Unwind.endU c x = MutM.call (SIMDIterator.end_ c) x := fun x => by
    rw [PlainUnwind.end_call]
  have hpos : ∀ p q, Stop w l.length p → Stop w l.length q → S p = S q → p = q := by
    intro p q hp hq e
    have h1 := hd.pos p hp.1
    have h2 := hd.pos q hq.1
    rw [e, h2] at h1
    exact (ok.inj h1).symm
  let m : I → Nat := fun x => if h : ∃ p, x = S p ∧ Stop w l.length p
    then (l.length - h.choose) / w else 0
  have hm : ∀ p, Stop w l.length p → m (S p) = (l.length - p) / w := by
    intro p hp
    have h : ∃ q, S p = S q ∧ Stop w l.length q := ⟨p, rfl, hp⟩
    show (if h : _ then _ else _) = _
    rw [dif_pos h, hpos _ _ h.choose_spec.2 hp h.choose_spec.1.symm]
  refine ⟨m, ?_, ?_, ?_, ?_, ?_, ?_, ?_⟩
  · rintro x ⟨p, rfl, hp⟩
    rw [hnx]
    by_cases h : more p
    · obtain ⟨h1, h2⟩ := hd.next_some p h
      have hp' : Stop w l.length (p + w) := ⟨h1, fun _ => Or.inr (by omega)⟩
      refine settles_ok (a := some (windowAt l p w h1)) (t := S (p + w)) (by simp [MutM.call, h2]) ?_
      refine ⟨⟨_, rfl, hp'⟩, fun e => (by cases e), fun _ _ => ?_⟩
      rw [hm _ hp, hm _ hp']
      exact stop_vecs hw h1
    · refine settles_ok (a := none) (t := S p) (by simp [MutM.call, hd.next_none p hp.1 h]) ?_
      exact ⟨⟨p, rfl, hp⟩, fun _ => ⟨p, rfl, hp, h⟩, fun v e => by cases e⟩
  · rintro x - ⟨p, rfl, hp, h⟩
    rw [hnx]
    simp [MutM.call, hd.next_none p hp.1 h]
  · rintro x - ⟨p, rfl, hp, h⟩
    rw [hen]
    have e := hd.end_ p hp.1 h hp.2
    have hf := hd.few p h
    by_cases h1 : p < l.length
    · rw [if_pos h1] at e
      refine settles_ok (a := some (padFront d (l.drop p), w - (l.length - p))) (t := S l.length)
        (by simp only [MutM.call, e]) ?_
      refine ⟨⟨_, rfl, Nat.le_refl _, fun h => absurd h (Nat.lt_irrefl _)⟩, fun q n e => ?_⟩
      cases e
      omega
    · rw [if_neg h1] at e
      refine settles_ok (a := none) (t := S p) (by simp only [MutM.call, e]) ?_
      exact ⟨⟨p, rfl, hp⟩, fun q n e => by cases e⟩
  · rintro x ⟨p, rfl, hp⟩
    exact hd.len p
  · rintro x ⟨p, rfl, hp⟩
    rw [hm p hp]
    exact Nat.div_le_div_right (Nat.sub_le _ _)
  · rintro x y hx e
    rw [← PlainUnwind.differ_eq α w x y e]
    exact hx
  · exact ⟨fun c x => by rw [PlainUnwind.next_call]; exact obs_call _ _,
      fun c x => by rw [PlainUnwind.end_call]; exact obs_call _ _⟩

theorem lawful_plain {I α : Type} {w : Nat} [SIMDSized I] [SIMDIterator I α w] [Unwind I α w]
    [Closures I] [PlainUnwind I α w] : LawfulUnwind I α w :=
  ⟨fun c x => by rw [PlainUnwind.next_call]; exact obs_call _ _,
    fun c x => by rw [PlainUnwind.end_call]; exact obs_call _ _⟩

theorem steady_zip {I Q α γ δ : Type} {w : Nat} [SIMDSized I] [SIMDIterator I α w] [Packable α]
    [Unwind I α w] [Closures I] [PlainUnwind I α w] [ZipRest Q γ] [LawfulRest Q γ δ w]
    {S : Nat → I} {rows : List (α × δ)} {dv : Vector (α × δ) w} {more : Nat → Prop} {r : Q}
    (hd : Driver c S (rows.map Prod.fst) (dv.map Prod.fst) more) (hw : 0 < w)
    (hr : LawfulRest.Rep c r (rows.map Prod.snd) (dv.map Prod.snd)) (hu : rows.length + w < c.usize)
    (hR : w * Packable.size α = R) :
    ∃ m, SteadyZip c w R (rows.length / w) (fun z : Zip I Q => ∃ p, z = ⟨S p, r⟩ ∧ Stop w rows.length p)
      (fun z => ∃ p, z = ⟨S p, r⟩ ∧ Stop w rows.length p ∧ ¬ more p) m := by
  classical
  have hlaw : LawfulUnwind I α w := lawful_plain
  have hz : LawfulUnwindZ (Zip I Q) (Vector α w × γ) := inferInstance
  have hpos : ∀ p q, Stop w rows.length p → Stop w rows.length q →
      (⟨S p, r⟩ : Zip I Q) = ⟨S q, r⟩ → p = q := by
    intro p q hp hq e
    have h1 := hd.pos p (by simpa using hp.1)
    have h2 := hd.pos q (by simpa using hq.1)
    have e' : S p = S q := congrArg Zip.first e
    rw [e', h2] at h1
    exact (ok.inj h1).symm
  let m : Zip I Q → Nat := fun z => if h : ∃ p, z = (⟨S p, r⟩ : Zip I Q) ∧ Stop w rows.length p
    then (rows.length - h.choose) / w else 0
  have hm : ∀ p, Stop w rows.length p → m ⟨S p, r⟩ = (rows.length - p) / w := by
    intro p hp
    have h : ∃ q, (⟨S p, r⟩ : Zip I Q) = ⟨S q, r⟩ ∧ Stop w rows.length q := ⟨p, rfl, hp⟩
    show (if h : _ then _ else _) = _
    rw [dif_pos h, hpos _ _ h.choose_spec.2 hp h.choose_spec.1.symm]
  have hnext := zip_next hd hr (show rows.length < c.usize by omega)
  refine ⟨m, ?_, ?_, ?_, ?_, ?_, ?_, fun _ => hR, hz⟩
  · rintro z ⟨p, rfl, hp⟩
    by_cases h : more p
    · obtain ⟨h1, h2⟩ := (hnext p).1 h
      have hp' : Stop w rows.length (p + w) := ⟨h1, fun _ => Or.inr (by omega)⟩
      refine settles_ok (obs_ok.1 ((LawfulUnwindZ.next_run c _).trans h2)) ?_
      refine ⟨⟨_, rfl, hp'⟩, fun e => (by cases e), fun _ _ => ?_⟩
      rw [hm _ hp, hm _ hp']
      exact stop_vecs hw h1
    · refine settles_ok (obs_ok.1 ((LawfulUnwindZ.next_run c _).trans ((hnext p).2 h hp.1))) ?_
      exact ⟨⟨p, rfl, hp⟩, fun _ => ⟨p, rfl, hp, h⟩, fun v e => by cases e⟩
  · rintro x - ⟨p, rfl, hp, h⟩
    exact obs_ok.1 ((LawfulUnwindZ.next_run c _).trans ((hnext p).2 h hp.1))
  · rintro x - ⟨p, rfl, hp, h⟩
    have e := zip_end hd hr (show w < c.usize by omega) p hp.1 h hp.2
    have hf := hd.few p h
    rw [List.length_map] at hf
    by_cases h1 : p < rows.length
    · rw [if_pos h1] at e
      refine settles_ok (obs_ok.1 ((LawfulUnwindZ.end_run c _).trans e)) ?_
      refine ⟨⟨_, rfl, Nat.le_refl _, fun h => absurd h (Nat.lt_irrefl _)⟩, fun q n e => ?_⟩
      cases e
      omega
    · rw [if_neg h1] at e
      refine settles_ok (obs_ok.1 ((LawfulUnwindZ.end_run c _).trans e)) ?_
      exact ⟨⟨p, rfl, hp⟩, fun q n e => by cases e⟩
  · rintro z ⟨p, rfl, hp⟩
    have := hd.len p
    simp only [List.length_map] at this
    exact this
  · rintro x ⟨p, rfl, hp⟩
    rw [hm p hp]
    exact Nat.div_le_div_right (Nat.sub_le _ _)
  · rintro x y ⟨p, rfl, hp⟩ e
    refine ⟨p, ?_, hp⟩
    rcases y with ⟨f, q⟩
    have e1 := PlainUnwind.differ_eq α w _ _ e.1
    have e2 : q = r := e.2
    simp only at e1
    rw [e2, ← e1]

/-! ### Pipelines -/

private def GoodU (c : Cfg) (R : Nat) (I α : Type) (w : Nat) (sz : SIMDSized I)
    (it : SIMDIterator I α w) (pk : Packable α) (uw : Unwind I α w) (cl : Closures I) (x : I) : Prop :=
  ∃ (L : Nat) (P Idle : I → Prop) (m : I → Nat), Steady c L P Idle m ∧ P x ∧
    (L + 3) * R < c.usize ∧ w * Packable.size α = R ∧ 0 < Packable.size α ∧ 0 < w

private def GoodUZ (c : Cfg) (R w : Nat) (Z γ : Type) (zi : SIMDZippedIterator Z γ)
    (uw : UnwindZ Z γ) (cl : Closures Z) (z : Z) : Prop :=
  ∃ (L : Nat) (P Idle : Z → Prop) (m : Z → Nat), SteadyZip c w R L P Idle m ∧ P z ∧
    (L + 3) * R < c.usize

private theorem less_room {L R : Nat} (h : (L + 3) * R < c.usize) : (L + 1) * R < c.usize :=
  Nat.lt_of_le_of_lt (Nat.mul_le_mul_right R (by omega)) h

private theorem goodU_source {I α : Type} {w : Nat} {sz : SIMDSized I} {it : SIMDIterator I α w}
    {arr : SIMDArray I α w} {uw : Unwind I α w} {cl : Closures I} [PlainUnwind I α w]
    [pk : Packable α] {x : I} {l : List α} (h : Source c I α w sz it arr x l)
    (hR : w * Packable.size α = R) (hs : 0 < Packable.size α)
    (hu : (l.length / w + 3) * R < c.usize) : GoodU c R I α w sz it pk uw cl x := by
  obtain ⟨hw, -, d, S, more, -, hd, rfl⟩ := source_spec h
  obtain ⟨m, hm⟩ := steady_source hd hw
  exact ⟨_, _, _, m, hm, ⟨0, rfl, Nat.zero_le _, fun _ => Or.inl rfl⟩, hu, hR, hs, hw⟩

private theorem goodU_map {I α σ β : Type} {w w' : Nat} {sz : SIMDSized I} {it : SIMDIterator I α w}
    {pk : Packable α} {uw : Unwind I α w} {cl : Closures I} [pk' : Packable β] {x : I} (st : σ)
    (f : FnMut σ (Vector α w) (Vector β w')) (h : GoodU c R I α w sz it pk uw cl x) (hf : Calm f)
    (h2 : w' * Packable.size β = R) (hs : 0 < Packable.size β) (hw : 0 < w') :
    GoodU c R (SIMDMap I σ α w β w') β w' inferInstance inferInstance pk' inferInstance
      inferInstance (simdMap x st f) := by
  obtain ⟨L, P, Idle, m, k1, k2, k3, k4, -, -⟩ := h
  exact ⟨L, _, _, _, steady_map k1 k4 h2 hs (less_room k3), ⟨k2, hf⟩, k3, h2, hs, hw⟩

private theorem goodU_zipMap {Z γ σ β : Type} {w w' : Nat} {zi : SIMDZippedIterator Z γ}
    {uw : UnwindZ Z γ} {cl : Closures Z} [pk : Packable β] {z : Z} (st : σ)
    (f : FnMut σ γ (Vector β w')) (h : GoodUZ c R w Z γ zi uw cl z) (hf : Calm f)
    (h2 : w' * Packable.size β = R) (hs : 0 < Packable.size β) (hw : 0 < w') :
    GoodU c R (SIMDZipMap Z σ γ β w') β w' inferInstance inferInstance pk inferInstance
      inferInstance (zsimdMap z st f) := by
  obtain ⟨L, P, Idle, m, k1, k2, k3⟩ := h
  exact ⟨L, _, _, _, steady_zipMap k1 h2 hs (less_room k3), ⟨k2, hf⟩, k3, h2, hs, hw⟩

private theorem goodU_zip {I Q α γ δ : Type} {w : Nat} {sz : SIMDSized I} {it : SIMDIterator I α w}
    {arr : SIMDArray I α w} {uw : Unwind I α w} {cl : Closures I} [PlainUnwind I α w]
    [Packable α] {zr : ZipRest Q γ} {pack : Vector δ w → γ} {x : I} {r : Q}
    {l : List α} {rows : List δ} {z : Zip I Q}
    (h : Source c I α w sz it arr x l) (hr : SourceRest c l.length w Q γ δ zr pack r rows)
    (hz : zip c x r = ok z) (hR : w * Packable.size α = R) (hu : (l.length / w + 3) * R < c.usize) :
    GoodUZ c R w (Zip I Q) (Vector α w × γ) inferInstance inferInstance inferInstance z := by
  obtain ⟨hw, hum, -⟩ := source_spec h
  obtain ⟨lr, dv, S, more, -, hd, hrep, rfl⟩ := zip_rows h hr hz
  have hrl : (l.zip rows).length = l.length := by simp [(sourceRest_spec hr).1]
  rw [← hrl] at hu hum
  obtain ⟨m, hm⟩ := steady_zip hd hw hrep (by omega) hR
  exact ⟨_, _, _, m, hm, ⟨0, rfl, Nat.zero_le _, fun _ => Or.inl rfl⟩, hu⟩

private theorem goodU_strideZip {I α : Type} {w : Nat} {sz : SIMDSized I} {it : SIMDIterator I α w}
    {pk : Packable α} {uw : Unwind I α w} {cl : Closures I} {x : I} {z : StrideZip I α w}
    (h : GoodU c R I α w sz it pk uw cl x) (hz : strideZip c x = ok z) (hu : 2 * w < c.usize) :
    GoodUZ c R w (StrideZip I α w) (Vector α w × Vector α w) inferInstance inferInstance
      inferInstance z := by
  obtain ⟨L, P, Idle, m, k1, k2, k3, k4, -, -⟩ := h
  have hi : z.iter = x := by
    simp only [strideZip] at hz
    cases hp : SIMDIterable.scalarPos c x with
    | ok p =>
      simp only [hp, ok_bind, ok.injEq] at hz
      rw [← hz]
    | _ => simp [hp] at hz
  refine ⟨L / 2, _, _, _, steady_strideZip k1 k4 hu, by rw [hi]; exact k2, ?_⟩
  exact Nat.lt_of_le_of_lt (Nat.mul_le_mul_right R (by omega)) k3

private theorem pipeU_good {I α : Type} {w : Nat} {sz : SIMDSized I} {it : SIMDIterator I α w}
    {pk : Packable α} {uw : Unwind I α w} {cl : Closures I} {x : I}
    (h : PipeU c R I α w sz it pk uw cl x) : GoodU c R I α w sz it pk uw cl x := by
  refine PipeU.rec (motive_1 := fun I α w sz it pk uw cl x _ => GoodU c R I α w sz it pk uw cl x)
    (motive_2 := fun w Z γ zi uw cl z _ => GoodUZ c R w Z γ zi uw cl z) ?_ ?_ ?_ ?_ ?_ h
  · exact fun h hR hs hu => goodU_source h hR hs hu
  · exact fun st f _ hf h2 hs hw ih => goodU_map st f ih hf h2 hs hw
  · exact fun st f _ hf h2 hs hw ih => goodU_zipMap st f ih hf h2 hs hw
  · exact fun h hr hz hR hu => goodU_zip h hr hz hR hu
  · exact fun _ hz hu ih => goodU_strideZip ih hz hu

private theorem zipPipeU_good {w : Nat} {Z γ : Type} {zi : SIMDZippedIterator Z γ}
    {uw : UnwindZ Z γ} {cl : Closures Z} {z : Z}
    (h : ZipPipeU c R w Z γ zi uw cl z) : GoodUZ c R w Z γ zi uw cl z := by
  refine ZipPipeU.rec (motive_1 := fun I α w sz it pk uw cl x _ => GoodU c R I α w sz it pk uw cl x)
    (motive_2 := fun w Z γ zi uw cl z _ => GoodUZ c R w Z γ zi uw cl z) ?_ ?_ ?_ ?_ ?_ h
  · exact fun h hR hs hu => goodU_source h hR hs hu
  · exact fun st f _ hf h2 hs hw ih => goodU_map st f ih hf h2 hs hw
  · exact fun st f _ hf h2 hs hw ih => goodU_zipMap st f ih hf h2 hs hw
  · exact fun h hr hz hR hu => goodU_zip h hr hz hR hu
  · exact fun _ hz hu ih => goodU_strideZip ih hz hu

/-! ### Consumers -/

section Consumers
variable {I α : Type} {w : Nat} [SIMDSized I] [SIMDIterator I α w] [Packable α] [Unwind I α w]
  [Closures I] {P Idle : I → Prop} {m : I → Nat}

theorem Steady.runs (h : Steady c L P Idle m) : ∀ (n : Nat) (x : I), P x → m x ≤ n →
    ∃ vs r, Runs c x vs r ∧ vs.length ≤ m x ∧ (r = panic ∨ ∃ y, r = ok y ∧ P y ∧ Idle y) := by
  have hlaw := h.lawful
  intro n
  induction n with
  | zero =>
    intro x hx hm
    have h1 := h.next x hx
    have h2 := LawfulUnwind.next_run (α := α) (w := w) c x
    unfold obs at h2
    rcases h3 : Unwind.nextU c x with ⟨r, y⟩
    rw [h3] at h1 h2
    rcases r with (_ | v) | _ | _ | _
    · exact ⟨[], _, Runs.done h2.symm, Nat.zero_le _, Or.inr ⟨y, rfl, h1.1, h1.2.1 rfl⟩⟩
    · exact absurd (h1.2.2 v rfl) (by omega)
    · exact ⟨[], _, Runs.fail h2.symm (by intro x e; cases e), Nat.zero_le _, Or.inl rfl⟩
    · exact h1.elim
    · exact h1.elim
  | succ n ih =>
    intro x hx hm
    have h1 := h.next x hx
    have h2 := LawfulUnwind.next_run (α := α) (w := w) c x
    unfold obs at h2
    rcases h3 : Unwind.nextU c x with ⟨r, y⟩
    rw [h3] at h1 h2
    rcases r with (_ | v) | _ | _ | _
    · exact ⟨[], _, Runs.done h2.symm, Nat.zero_le _, Or.inr ⟨y, rfl, h1.1, h1.2.1 rfl⟩⟩
    · have h4 := h1.2.2 v rfl
      simp only at h4
      obtain ⟨vs, r, k1, k2, k3⟩ := ih y h1.1 (by omega)
      exact ⟨v :: vs, r, Runs.step h2.symm k1, by simp only [List.length_cons]; omega, k3⟩
    · exact ⟨[], _, Runs.fail h2.symm (by intro x e; cases e), Nat.zero_le _, Or.inl rfl⟩
    · exact h1.elim
    · exact h1.elim

theorem Steady.reduceLoop {A σ : Type} {f : σ → A → Vector α w → Res (A × σ)} (h : Steady c L P Idle m)
    (hf : Calm2 f) : ∀ (fuel : Nat) (a : A) (st : σ) (x : I), P x → m x < fuel →
    Settles (reduceLoopU c f fuel a st x) (fun _ y => P y ∧ Idle y) P
  | 0, _, _, _, _, hm => absurd hm (Nat.not_lt_zero _)
  | fuel + 1, a, st, x, hx, hm => by
    refine settles_bind (h.next x hx) ?_
    rintro r y - ⟨k1, k2, k3⟩
    cases r with
    | none => exact ⟨k1, k2 rfl⟩
    | some v =>
      refine settles_bind (Q := fun _ t => t = y)
        (settles_lift (hf st a v) (fun _ _ => rfl) k1) ?_
      rintro p t - rfl
      have := k3 v rfl
      exact h.reduceLoop hf fuel p.1 p.2 t k1 (by omega)

theorem Steady.doEachLoop {σ : Type} {f : FnMut σ (Vector α w) Unit} (h : Steady c L P Idle m)
    (hf : Calm f) : ∀ (fuel : Nat) (st : σ) (x : I), P x → m x < fuel →
    Settles (doEachLoopU c f fuel st x) (fun _ y => P y ∧ Idle y) P
  | 0, _, _, _, hm => absurd hm (Nat.not_lt_zero _)
  | fuel + 1, st, x, hx, hm => by
    refine settles_bind (h.next x hx) ?_
    rintro r y - ⟨k1, k2, k3⟩
    cases r with
    | none => exact ⟨k1, k2 rfl⟩
    | some v =>
      refine settles_bind (Q := fun _ t => t = y)
        (settles_lift (hf st v) (fun _ _ => rfl) k1) ?_
      rintro p t - rfl
      have := k3 v rfl
      exact h.doEachLoop hf fuel p.2 t k1 (by omega)

omit [SIMDSized I] [SIMDIterator I α w] [Packable α] [Unwind I α w] [Closures I] in
theorem after_onFst {B r : Type} {x : MutM I r} {Q : r → I → Prop} {E : I → Prop} {s : I × B}
    (h : After (x s.1) Q E) : After (MutM.onFst x s) (fun a t => Q a t.1) (fun t => E t.1) := by
  unfold MutM.onFst
  rcases h2 : x s.1 with ⟨y, t⟩
  rw [h2] at h
  cases y with
  | ok a => exact h
  | _ => exact h

omit [SIMDSized I] [SIMDIterator I α w] [Packable α] [Unwind I α w] [Closures I] in
theorem after_onSnd {B r : Type} {x : MutM B r} {E : I → Prop} {s : I × B} (h : E s.1) :
    After (MutM.onSnd x s) (fun _ t => E t.1) (fun t => E t.1) := by
  unfold MutM.onSnd
  rcases h2 : x s.2 with ⟨y, t⟩
  cases y with
  | ok a => exact h
  | _ => exact h

theorem Steady.fillLoop (h : Steady c L P Idle m) : ∀ (fuel o : Nat) (v : Vector α w)
    (s : I × List α), P s.1 →
    After (fillLoopU c fuel o v s) (fun _ t => P t.1 ∧ Idle t.1) (fun t => P t.1)
  | 0, _, _, _, hs => hs
  | fuel + 1, o, v, s, hs => by
    refine after_bind (after_onFst (h.next s.1 hs).after) ?_
    rintro r t - ⟨k1, k2, -⟩
    cases r with
    | none => exact ⟨k1, k2 rfl⟩
    | some v =>
      refine after_bind (after_onSnd k1) ?_
      intro _ t _ k3
      refine after_bind (Q := fun _ u => P u.1) (after_lift (fun _ _ => k3) k3) ?_
      intro o u _ k4
      exact h.fillLoop fuel o v u k4

theorem Steady.collectLoop (h : Steady c L P Idle m) : ∀ (fuel : Nat) (buf : List (Option α))
    (o : Nat) (v : Vector α w) (s : I), P s →
    After (collectLoopU c fuel buf o v s) (fun _ t => P t ∧ Idle t) P
  | 0, _, _, _, _, hs => hs
  | fuel + 1, buf, o, v, s, hs => by
    refine after_bind (h.next s hs).after ?_
    rintro r t - ⟨k1, k2, -⟩
    cases r with
    | none => exact ⟨k1, k2 rfl⟩
    | some v =>
      refine after_bind (Q := fun _ u => P u) (after_lift (fun _ _ => k1) k1) ?_
      intro b u _ k3
      refine after_bind (Q := fun _ u => P u) (after_lift (fun _ _ => k3) k3) ?_
      intro o u _ k4
      exact h.collectLoop fuel b o v u k4

/-- `scalar_collect` with the caught panics left out. -/
theorem Steady.collect (h : Steady c L P Idle m) (hw : 0 < w) (hu : (L + 3) * w < c.usize) {x : I}
    (hx : P x) {fuel : Nat} (hf : L < fuel) : scalarCollect c fuel x = panic ∨
    ∃ y l, scalarCollect c fuel x = ok (y, l) ∧ Cells L w l := by
  have hlaw := h.lawful
  have e1 : (L + 3) * w = (L + 1) * w + 2 * w := by rw [← Nat.add_mul]
  have e2 : (L + 3) * w = L * w + 3 * w := Nat.add_mul _ _ _
  have e3 : (L + 2) * w = L * w + 2 * w := Nat.add_mul _ _ _
  have e4 : (L + 1) * w = L * w + w := Nat.succ_mul _ _
  have h1w : L + 1 ≤ (L + 1) * w := Nat.le_mul_of_pos_right _ hw
  have hL := h.len x hx
  obtain ⟨vs, r, k1, k2, k3⟩ := h.runs _ x hx (Nat.le_refl _)
  have k4 := h.fits x hx
  have hvs : vs.length * w ≤ L * w := Nat.mul_le_mul_right w (by omega)
  rcases k3 with rfl | ⟨y, rfl, hy, hi⟩
  · left
    rw [C135_collect_panics c fuel x vs L ⟨_, k1, rfl⟩ hL (by omega) hw (by omega),
      if_neg (by omega)]
  · have hcap : (uadd c L 1 >>= fun x => umul c x w) = ok ((L + 1) * w) := by
      rw [uadd_ok (by omega)]
      exact umul_ok (by omega)
    have h1 := h.end_ y hy hi
    have h2 := LawfulUnwind.end_run (α := α) (w := w) c y
    unfold obs at h2
    rcases h3 : Unwind.endU c y with ⟨r, z⟩
    rw [h3] at h1 h2
    rcases r with t | _ | _ | _
    · obtain ⟨hz, hn⟩ := h1
      rw [C135_collect c fuel x y z vs t L _ k1 h2.symm hL hcap (by omega) hw (by omega)
        (fun p n e => Nat.lt_of_le_of_lt (hn p n e) (by omega)), if_neg (by omega)]
      right
      rcases t with _ | ⟨p, n⟩
      · simp only [h.len z hz, ok_bind]
        rw [umul_ok (by omega)]
        simp only [ok_bind]
        rw [if_pos (by omega)]
        refine ⟨_, _, rfl, lanes vs, L * w - vs.length * w, ?_, Or.inr ?_, ?_⟩
        · rw [List.take_append, List.take_of_length_le (by simp [lanes_length]; omega),
            List.take_replicate]
          simp only [List.length_map, lanes_length]
          congr 2
          omega
        · simp [lanes_length]; omega
        · simp [lanes_length]; omega
      · have hnw := hn p n rfl
        have hlen : ((lanes vs ++ p.toList.drop n).map (some : α → Option α)).length
            = vs.length * w + (w - n) := by simp [lanes_length]
        have hts : tailStored c some p n vs Packed.default (List.replicate ((L + 1) * w) none) =
            ok (splice (List.replicate ((L + 1) * w) none) 0
              ((lanes vs ++ p.toList.drop n).map some)) := by
          unfold tailStored
          simp only [List.length_replicate]
          by_cases h0 : vs.length = 0
          · rw [if_pos h0, if_neg (by omega), if_neg (by omega)]
            have : vs = [] := List.eq_nil_of_length_eq_zero h0
            subst this
            rfl
          · rw [if_neg h0, if_pos hnw, if_neg (by omega)]
        simp only [hts, ok_bind]
        have hmod : (c.usize + w + vs.length * w - n) % c.usize = vs.length * w + (w - n) := by
          rw [show c.usize + w + vs.length * w - n = vs.length * w + (w - n) + c.usize by omega,
            Nat.add_mod_right, Nat.mod_eq_of_lt (by omega)]
        rw [hmod]
        refine ⟨_, _, rfl, lanes vs ++ p.toList.drop n, 0, ?_, Or.inl rfl, ?_⟩
        · unfold splice
          simp only [List.take_zero, List.nil_append, List.replicate_zero, List.append_nil]
          rw [List.take_append, List.take_of_length_le (by omega), hlen, Nat.sub_self, List.take_zero,
            List.append_nil]
        · rw [List.length_take]; omega
    · left
      rw [C135_collect_panics c fuel x vs L ⟨_, k1, h2⟩ hL (by omega) hw (by omega),
        if_neg (by omega)]
    · exact h1.elim
    · exact h1.elim

/-- `scalar_fill` with the caught panics left out. -/
theorem Steady.fill (h : Steady c L P Idle m) (hw : 0 < w) (hu : (L + 3) * w < c.usize) {x : I}
    (hx : P x) {fuel : Nat} (hf : L < fuel) {buf : List α} (hb : (L + 1) * w ≤ buf.length) :
    (scalarFill c fuel x buf).finishes := by
  have hlaw := h.lawful
  have e2 : (L + 3) * w = L * w + 3 * w := Nat.add_mul _ _ _
  have e4 : (L + 1) * w = L * w + w := Nat.succ_mul _ _
  obtain ⟨vs, r, k1, k2, k3⟩ := h.runs _ x hx (Nat.le_refl _)
  have k4 := h.fits x hx
  have hvs : vs.length * w ≤ L * w := Nat.mul_le_mul_right w (by omega)
  have key : ∀ e : Res (Option (Vector α w × Nat) × I), Emits c x vs e → e.finishes →
      (∀ p n y, e = ok (some (p, n), y) → n ≤ w) → (scalarFill c fuel x buf).finishes := by
    intro e h1 h2 h3
    rw [scalarFill_emits h1 fuel buf (by omega) hw (by omega) (by omega)
      (fun p n y e => ⟨h3 p n y e, by omega⟩)]
    cases e with
    | ok a => trivial
    | panic => trivial
    | _ => exact h2.elim
  rcases k3 with rfl | ⟨y, rfl, hy, hi⟩
  · exact key _ ⟨_, k1, rfl⟩ trivial (fun p n y e => by cases e)
  · have h1 := h.end_ y hy hi
    have h2 := LawfulUnwind.end_run (α := α) (w := w) c y
    unfold obs at h2
    rcases h3 : Unwind.endU c y with ⟨r, z⟩
    rw [h3] at h1 h2
    refine key _ ⟨_, k1, h2⟩ ?_ ?_
    · rcases r with t | _ | _ | _
      · trivial
      · trivial
      · exact h1.elim
      · exact h1.elim
    · intro p n y e
      rcases r with t | _ | _ | _
      · cases e
        exact h1.2 p n rfl
      · cases e
      · cases e
      · cases e

theorem Steady.reusable (h : Steady c L P Idle m) (hw : 0 < w) (hu : (L + 3) * w < c.usize) :
    Reusable c L P := by
  have hlaw := h.lawful
  have hcol : ∀ x, P x → ∀ fuel, L < fuel → (scalarCollectU c fuel x).1.finishes ∧
      ∀ l, (scalarCollectU c fuel x).1 = ok l → Cells L w l := by
    intro x hx fuel hf
    have h1 := C138_same_collect c fuel x
    rcases h.collect hw hu hx hf with h2 | ⟨y, l, h2, h3⟩
    · rw [h2] at h1
      refine ⟨finishes_obs (by rw [h1]; trivial), fun l e => ?_⟩
      unfold obs at h1
      rcases h4 : scalarCollectU c fuel x with ⟨r, t⟩
      rw [h4] at h1 e
      simp only at e
      subst e
      cases h1
    · rw [h2] at h1
      have h4 := obs_ok.1 h1
      rw [h4]
      exact ⟨trivial, fun l' e => by cases e; exact h3⟩
  refine ⟨h.len, fun x hx => ?_, fun x hx hn => ?_, fun x hx fuel A σ a st f hf hc => ?_,
    fun x hx fuel σ st f hf hc => ?_, fun x hx fuel hf => ⟨(hcol x hx fuel hf).1, ?_⟩,
    fun x hx fuel hf => (hcol x hx fuel hf).2, fun x hx fuel buf hf hb => ⟨?_, ?_⟩, h.differ⟩
  · exact ⟨(h.next x hx).finishes, (h.next x hx).after.keeps fun _ _ h => h.1⟩
  · have h1 := h.next x hx
    have h2 := obs_ok.1 ((LawfulUnwind.next_run (α := α) (w := w) c x).trans hn)
    rw [h2] at h1
    have h3 := h.end_ x hx (h1.2.1 rfl)
    exact ⟨h3.finishes, h3.after.keeps fun _ _ h => h.1⟩
  · have h1 : Settles (simdReduceU c fuel a st f x) (fun _ => P) P := by
      refine settles_bind (h.reduceLoop hc fuel a st x hx (Nat.lt_of_le_of_lt (h.fits x hx) hf)) ?_
      rintro ⟨b, u⟩ y - ⟨k1, k2⟩
      refine settles_bind (h.end_ y k1 k2) ?_
      rintro (_ | ⟨p, n⟩) z - ⟨k3, -⟩
      · exact k3
      · exact settles_lift (hc _ _ _) (fun _ _ => k3) k3
    exact ⟨h1.finishes, h1.after.keeps fun _ _ h => h⟩
  · have h1 : Settles (simdDoEachU c fuel st f x) (fun _ => P) P := by
      refine settles_bind (h.doEachLoop hc fuel st x hx (Nat.lt_of_le_of_lt (h.fits x hx) hf)) ?_
      rintro u y - ⟨k1, k2⟩
      refine settles_bind (h.end_ y k1 k2) ?_
      rintro (_ | ⟨p, n⟩) z - ⟨k3, -⟩
      · exact k3
      · refine settles_bind (Q := fun _ => P) (settles_lift (hc _ _) (fun _ _ => k3) k3) ?_
        intro _ t _ k4
        exact k4
    exact ⟨h1.finishes, h1.after.keeps fun _ _ h => h⟩
  · have h1 : After (scalarCollectU c fuel x) (fun _ => P) P := by
      refine after_bind (Q := fun _ => P) (x := MutM.get) hx ?_
      intro it t _ ht
      refine after_bind (Q := fun _ => P) (after_lift (fun _ _ => ht) ht) ?_
      intro ret t _ ht
      refine after_bind (h.collectLoop fuel _ 0 _ t ht) ?_
      rintro ⟨b, o, l⟩ y - ⟨k1, k2⟩
      refine after_bind (h.end_ y k1 k2).after ?_
      rintro (_ | ⟨p, n⟩) z - ⟨k3, -⟩
      · refine after_bind (Q := fun _ => P) (x := MutM.get) k3 ?_
        intro it t _ ht
        exact after_lift (fun _ _ => ht) ht
      · exact after_lift (fun _ _ => k3) k3
    exact h1.keeps fun _ _ h => h
  · refine finishes_obs ?_
    rw [C117_same_fill]
    have := h.fill hw hu hx hf hb
    cases h2 : scalarFill c fuel x buf with
    | ok a => trivial
    | panic => trivial
    | ub => rw [h2] at this; exact this
    | hang => rw [h2] at this; exact this
  · have tail : ∀ (p : Vector α w) (n o k i : Nat) (s : I × List α), P s.1 →
        After (fillTailLoopU c p n o k i s) (fun _ t => P t.1) (fun t => P t.1) := by
      intro p n o k
      induction k with
      | zero => exact fun i s hs => hs
      | succ k ih =>
        intro i s hs
        refine after_bind (Q := fun _ t => P t.1) (after_lift (fun _ _ => hs) hs) ?_
        intro a t _ ht
        refine after_bind (Q := fun _ t => P t.1) (after_lift (fun _ _ => ht) ht) ?_
        intro b t _ ht
        refine after_bind (after_onSnd ht) ?_
        intro _ t _ ht
        exact ih _ t ht
    have h1 : After (scalarFillU c fuel (x, buf)) (fun _ t => P t.1) (fun t => P t.1) := by
      refine after_bind (h.fillLoop fuel 0 _ (x, buf) hx) ?_
      rintro ⟨o, l⟩ y - ⟨k1, k2⟩
      refine after_bind (after_onFst (h.end_ y.1 k1 k2).after) ?_
      rintro (_ | ⟨p, n⟩) z - ⟨k3, -⟩
      · exact k3
      · show After ((if o > 0 then _ else _ : MutM (I × List α) Unit) z) _ _
        by_cases ho : o > 0
        · rw [if_pos ho]
          refine after_bind (Q := fun _ t => P t.1) (after_lift (fun _ _ => k3) k3) ?_
          intro a t _ ht
          refine after_bind (after_onSnd ht) ?_
          intro _ t _ ht
          refine after_bind (Q := fun _ t => P t.1) (after_lift (fun _ _ => ht) ht) ?_
          intro b t _ ht
          exact after_onSnd ht
        · rw [if_neg ho]
          refine after_bind (Q := fun _ t => P t.1) (after_lift (fun _ _ => k3) k3) ?_
          intro a t _ ht
          exact tail _ _ _ _ _ t ht
    exact h1.keeps fun _ _ h => h

end Consumers

section ZipConsumers
variable {Z γ : Type} {w R : Nat} [SIMDZippedIterator Z γ] [UnwindZ Z γ] [Closures Z]
  {P Idle : Z → Prop} {m : Z → Nat}

theorem SteadyZip.reduceLoop {A σ : Type} {f : σ → A → γ → Res (A × σ)}
    (h : SteadyZip c w R L P Idle m) (hf : Calm2 f) : ∀ (fuel : Nat) (a : A) (st : σ) (x : Z), P x →
    m x < fuel → Settles (zreduceLoopU c f fuel a st x) (fun _ y => P y ∧ Idle y) P
  | 0, _, _, _, _, hm => absurd hm (Nat.not_lt_zero _)
  | fuel + 1, a, st, x, hx, hm => by
    refine settles_bind (h.next x hx) ?_
    rintro r y - ⟨k1, k2, k3⟩
    cases r with
    | none => exact ⟨k1, k2 rfl⟩
    | some v =>
      refine settles_bind (Q := fun _ t => t = y)
        (settles_lift (hf st a v) (fun _ _ => rfl) k1) ?_
      rintro p t - rfl
      have := k3 v rfl
      exact h.reduceLoop hf fuel p.1 p.2 t k1 (by omega)

theorem SteadyZip.doEachLoop {σ : Type} {f : FnMut σ γ Unit} (h : SteadyZip c w R L P Idle m)
    (hf : Calm f) : ∀ (fuel : Nat) (st : σ) (x : Z), P x → m x < fuel →
    Settles (zdoEachLoopU c f fuel st x) (fun _ y => P y ∧ Idle y) P
  | 0, _, _, _, hm => absurd hm (Nat.not_lt_zero _)
  | fuel + 1, st, x, hx, hm => by
    refine settles_bind (h.next x hx) ?_
    rintro r y - ⟨k1, k2, k3⟩
    cases r with
    | none => exact ⟨k1, k2 rfl⟩
    | some v =>
      refine settles_bind (Q := fun _ t => t = y)
        (settles_lift (hf st v) (fun _ _ => rfl) k1) ?_
      rintro p t - rfl
      have := k3 v rfl
      exact h.doEachLoop hf fuel p.2 t k1 (by omega)

theorem SteadyZip.reusable (h : SteadyZip c w R L P Idle m) : ReusableZip c L P := by
  have hlaw := h.lawful
  refine ⟨h.len, fun x hx => ?_, fun x hx hn => ?_, fun x hx fuel A σ a st f hf hc => ?_,
    fun x hx fuel σ st f hf hc => ?_, h.differ⟩
  · exact ⟨(h.next x hx).finishes, (h.next x hx).after.keeps fun _ _ h => h.1⟩
  · have h1 := h.next x hx
    have h2 := obs_ok.1 ((LawfulUnwindZ.next_run (γ := γ) c x).trans hn)
    rw [h2] at h1
    have h3 := h.end_ x hx (h1.2.1 rfl)
    exact ⟨h3.finishes, h3.after.keeps fun _ _ h => h.1⟩
  · have h1 : Settles (zsimdReduceU c fuel a st f x) (fun _ => P) P := by
      refine settles_bind (h.reduceLoop hc fuel a st x hx (Nat.lt_of_le_of_lt (h.fits x hx) hf)) ?_
      rintro ⟨b, u⟩ y - ⟨k1, k2⟩
      refine settles_bind (h.end_ y k1 k2) ?_
      rintro (_ | ⟨p, n⟩) z - ⟨k3, -⟩
      · exact k3
      · exact settles_lift (hc _ _ _) (fun _ _ => k3) k3
    exact ⟨h1.finishes, h1.after.keeps fun _ _ h => h⟩
  · have h1 : Settles (zsimdDoEachU c fuel st f x) (fun _ => P) P := by
      refine settles_bind (h.doEachLoop hc fuel st x hx (Nat.lt_of_le_of_lt (h.fits x hx) hf)) ?_
      rintro u y - ⟨k1, k2⟩
      refine settles_bind (h.end_ y k1 k2) ?_
      rintro (_ | ⟨p, n⟩) z - ⟨k3, -⟩
      · exact k3
      · refine settles_bind (Q := fun _ => P) (settles_lift (hc _ _) (fun _ _ => k3) k3) ?_
        intro _ t _ k4
        exact k4
    exact ⟨h1.finishes, h1.after.keeps fun _ _ h => h⟩

end ZipConsumers

/-! ### The theorems -/

/-- **C145**: a pipeline, and every state a panic or a consumer leaves it in: every call returns or
panics, in debug and in release builds, and `scalar_collect` returns scalars followed by
uninitialised cells at most. -/
theorem C145_pipeline_partial {I α : Type} {w : Nat} {sz : SIMDSized I} {it : SIMDIterator I α w}
    {pk : Packable α} {uw : Unwind I α w} {cl : Closures I} {x : I}
    (h : PipeU c R I α w sz it pk uw cl x) : ∃ (L : Nat) (P : I → Prop), Reusable c L P ∧ P x := by
  obtain ⟨L, P, Idle, m, k1, k2, k3, k4, k5, k6⟩ := pipeU_good h
  refine ⟨L, P, k1.reusable k6 (Nat.lt_of_le_of_lt (Nat.mul_le_mul_left _ ?_) k3), k2⟩
  rw [← k4]
  exact Nat.le_mul_of_pos_right _ k5

/-- **C145**: the same for zips. -/
theorem C145_zip_partial {w : Nat} {Z γ : Type} {zi : SIMDZippedIterator Z γ} {uw : UnwindZ Z γ}
    {cl : Closures Z} {z : Z} (h : ZipPipeU c R w Z γ zi uw cl z) :
    ∃ (L : Nat) (P : Z → Prop), ReusableZip c L P ∧ P z := by
  obtain ⟨L, P, Idle, m, k1, k2, -⟩ := zipPipeU_good h
  exact ⟨L, P, k1.reusable, k2⟩

/-- Claim: a pipeline consumed again after a panic was caught returns no uninitialised memory. -/
def NoUninitialised (c : Cfg) : Prop :=
  ∀ (R : Nat) (I α : Type) (w : Nat) (sz : SIMDSized I) (it : SIMDIterator I α w) (pk : Packable α)
    (uw : Unwind I α w) (cl : Closures I) (x y : I) (fuel : Nat) (l : List (Option α)),
    PipeU c R I α w sz it pk uw cl x → (scalarCollectU c fuel x).1 = panic →
    Closures.differ (scalarCollectU c fuel x).2 y → (scalarCollectU c fuel y).1 = ok l → none ∉ l

/-- A closure which counts its calls and panics in the second of them. -/
private def second : FnMut Nat (Vector (BitVec 8) 2) (Vector (BitVec 8) 2) := fun n v =>
  if n = 1 then panic else ok (v.map (· + 1), n + 1)

private theorem second_calm : Calm second := by
  intro n v
  show (if n = 1 then _ else _ : Res _).finishes
  by_cases h : n = 1
  · rw [if_pos h]; trivial
  · rw [if_neg h]; trivial

private abbrev again : SIMDMap (SIMDIter (Slice (BitVec 8) 2) (BitVec 8) 2) Nat (BitVec 8) 2 (BitVec 8) 2 :=
  simdMap (simdIter [1#8, 2, 3, 4, 5, 6] #v[0, 0]) 0 second

private theorem again_pipe : PipeU release64 2 _ (BitVec 8) 2 inferInstance inferInstance
    inferInstance inferInstance inferInstance again :=
  .map 0 second (.source (.slice [1#8, 2, 3, 4, 5, 6] #v[0, 0] (by decide) (by decide)) rfl
    (by decide) (by decide)) second_calm rfl (by decide) (by decide)

/-- **C145** is false: the vectors which were given before the panic are missing at the end of the
returned vector, whose length is computed from the whole collection. -/
theorem C145_false : ¬ NoUninitialised release64 := by
  intro h
  have h1 := h 2 _ (BitVec 8) 2 _ _ _ _ _ again { (scalarCollectU release64 9 again).2 with st := 2 } 9
    [some 6, some 7, none, none, none, none] again_pipe (by decide +kernel) ⟨rfl, rfl⟩
    (by decide +kernel)
  exact h1 (by decide)

/-- The states of `again` which `C145_pipeline_partial` is about include the state after the panic
with another count, and `scalar_collect` on it. -/
example : ∃ (L : Nat) (P : SIMDMap (SIMDIter (Slice (BitVec 8) 2) (BitVec 8) 2) Nat (BitVec 8) 2
      (BitVec 8) 2 → Prop), Reusable release64 L P ∧ L = 3 ∧
    P { (scalarCollectU release64 9 again).2 with st := 2 } ∧
    (scalarCollectU release64 9 again).1 = panic ∧
    Cells 3 2 [some 6#8, some 7, none, none, none, none] := by
  obtain ⟨L, P, h1, h2⟩ := C145_pipeline_partial again_pipe
  have hL : L = 3 := by
    have e1 := h1.len again h2
    have e2 : SIMDIterable.len release64 again = ok 3 := by decide +kernel
    rw [e2] at e1
    exact (ok.inj e1).symm
  subst hL
  have h3 := h1.captured _ { (scalarCollectU release64 9 again).2 with st := 2 }
    (h1.collect again h2 9 (by decide)).2 ⟨rfl, rfl⟩
  exact ⟨3, P, h1, rfl, h3, by decide +kernel, h1.cells _ h3 9 (by decide) _ (by decide +kernel)⟩

/-- A zip whose reduction panics at the second row. The zip stays in step, and what is left is
visited by the next call. -/
example : ∃ z : Zip (SIMDIter (Slice (BitVec 8) 2) (BitVec 8) 2)
      (SIMDIter (Slice (BitVec 8) 2) (BitVec 8) 2 × Unit),
    ZipPipeU release64 2 2 _ (Vector (BitVec 8) 2 × Vector (BitVec 8) 2 × Unit) inferInstance
      inferInstance inferInstance z ∧
    (zsimdReduceU release64 9 (0#8) ()
      (fun _ a v => if v.1[0] = 3#8 then panic else ok (a + v.2.1[0], ())) z).1 = panic ∧
    (zsimdReduceU release64 9 (0#8) () (fun _ a v => ok (a + v.1[0] + v.2.1[0], ()))
      (zsimdReduceU release64 9 (0#8) ()
        (fun _ a v => if v.1[0] = 3#8 then panic else ok (a + v.2.1[0], ())) z).2).1 =
      ok (55, ()) := by
  refine ⟨⟨simdIter [1#8, 2, 3, 4, 5, 6] #v[0, 0], (simdIter [10#8, 20, 30, 40, 50, 60] #v[0, 0], ())⟩,
    ?_, ?_, ?_⟩
  · exact .zip (.slice [1#8, 2, 3, 4, 5, 6] #v[0, 0] (by decide) (by decide))
      (.cons (.slice [10#8, 20, 30, 40, 50, 60] #v[0, 0] (by decide) (by decide)) rfl .nil) rfl rfl
      (by decide)
  · decide +kernel
  · decide +kernel

end Faster
