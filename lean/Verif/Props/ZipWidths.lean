import Verif.Props.ZipMany
/-
C147: complete passes over zips of slices whose vectors have different numbers of
lanes.

`impl_iter_zip!` (src/zip.rs:223-300) does not require that the zipped iterators
have vectors of one width. `zip` compares numbers of vectors, so it rejects most
such slices of equal lengths and accepts slices of different lengths. `next` and
`end` pass the position and the number of empty lanes of the first iterator to
all others.
-/
namespace Faster
open Res SIMDSized SIMDIterable SIMDIterator

/-! ### Any number of slices, any widths -/

/-- What `next_unchecked(p)` of a slice returns: the elements from `p` on, if there are enough of
them. -/
def windowSeen {β : Type} (c : Cfg) (ys : List β) (w p : Nat) : Res (Vector β w) :=
  if h : p + w ≤ ys.length then ok (windowAt ys p w h)
  else if c.debug ∨ ys.length < p then panic else ub

/-- The second and further iterators of a zip, if all of them are iterators over slices, each with
vectors of its own number of lanes. -/
class MixedRest (R : Type) (γ : outParam Type) [ZipRest R γ] where
  /-- The length of each slice and the number of lanes of its vectors. -/
  shapes : R → List (Nat × Nat)
  /-- The vectors beginning at a position. -/
  windows : Cfg → R → Nat → Res γ
  /-- The last vectors, for a position and a number of empty lanes. -/
  tails : Cfg → R → Nat → Nat → Res γ
  len_eq : ∀ (c : Cfg) (r : R) (m : Nat), (∀ s ∈ shapes r, 0 < s.2 ∧ s.1 + s.2 < c.usize) →
    ZipRest.lenDiffers c r m = ok (decide (∃ s ∈ shapes r, s.1 / s.2 ≠ m))
  next_eq : ∀ (c : Cfg) (r : R) (p : Nat), (∀ s ∈ shapes r, p + s.2 < c.usize) →
    ZipRest.nextAll c r p = windows c r p
  end_eq : ∀ (c : Cfg) (r : R) (p e : Nat),
    (∀ s ∈ shapes r, s.1 + s.2 < c.usize ∧ s.1 + e < c.usize) →
    ZipRest.endAll c r p e = tails c r p e

/-- No further slice. -/
instance instMixedRestUnit : MixedRest Unit Unit where
  shapes _ := []
  windows _ _ _ := ok ()
  tails _ _ _ _ := ok ()
  len_eq _ _ _ _ := by simp [ZipRest.lenDiffers]
  next_eq _ _ _ _ := rfl
  end_eq _ _ _ _ _ := rfl

/-- One more slice: `windowSeen`, and `endSeen` (C23) at the end. -/
instance instMixedRestCons {β R γ : Type} {w : Nat} [ZipRest R γ] [MixedRest R γ] :
    MixedRest (SIMDIter (Slice β w) β w × R) (Vector β w × γ) where
  shapes r := (r.1.data.elems.length, w) :: MixedRest.shapes r.2
  windows c r p := do
    let v ← windowSeen c r.1.data.elems w p
    let vs ← MixedRest.windows c r.2 p
    ok (v, vs)
  tails c r p e := do
    let v ← endSeen c r.1.data.elems r.1.default p e
    let vs ← MixedRest.tails c r.2 p e
    ok (v, vs)
  len_eq c r m h := by
    obtain ⟨⟨q, ⟨ys⟩, dy⟩, r⟩ := r
    simp only [List.mem_cons, forall_eq_or_imp] at h
    have h1 : SIMDIterable.len c (⟨q, ⟨ys⟩, dy⟩ : SIMDIter (Slice β w) β w) = ok (ys.length / w) :=
      (simdIter_driver (represents_slice c ys) dy h.1.1 h.1.2).len q
    have h2 := MixedRest.len_eq c r m h.2
    simp only [ZipRest.lenDiffers, h1, ok_bind] at h2 ⊢
    by_cases hm : m = ys.length / w
    · rw [if_neg (by simpa using hm), h2]
      congr 1
      simp [hm]
    · rw [if_pos hm]
      simp
      exact .inl fun e => hm e.symm
  next_eq c r p h := by
    obtain ⟨⟨q, ⟨ys⟩, dy⟩, r⟩ := r
    simp only [List.mem_cons, forall_eq_or_imp] at h
    simp only [ZipRest.nextAll, nextUnchecked_exact c ys q dy p h.1, windowSeen,
      MixedRest.next_eq c r p h.2]
  end_eq c r p e h := by
    obtain ⟨⟨q, ⟨ys⟩, dy⟩, r⟩ := r
    simp only [List.mem_cons, forall_eq_or_imp] at h
    have h1 : endUnchecked c (⟨q, ⟨ys⟩, dy⟩ : SIMDIter (Slice β w) β w) p e =
        endSeen c ys dy p e :=
      endUnchecked_exact (represents_iter (represents_slice c ys) q dy) _ _ h.1.1 h.1.2
    simp only [ZipRest.endAll, h1, MixedRest.end_eq c r p e h.2]

section Many
variable {α R γ : Type} {w : Nat} [Packable α] [ZipRest R γ] [MixedRest R γ]

/-- The numbers which a slice of `n` elements, and the others, need to have room in a `usize`: slices
have at most `isize::MAX` bytes. -/
def Roomy (c : Cfg) (n w : Nat) (shapes : List (Nat × Nat)) : Prop :=
  n + w < c.usize ∧ ∀ s ∈ shapes, 0 < s.2 ∧ s.1 + s.2 < c.usize ∧ s.1 + w < c.usize ∧
    n + s.2 < c.usize

omit [Packable α] in
/-- **C147**: `zip` compares numbers of full vectors, whatever their widths. -/
theorem C147_zip (c : Cfg) (xs : List α) (dx : Vector α w) (r : R) (hw : 0 < w)
    (hu : Roomy c xs.length w (MixedRest.shapes r)) :
    zip c (simdIter xs dx) r =
      if ∃ s ∈ MixedRest.shapes r, s.1 / s.2 ≠ xs.length / w then panic
      else ok ⟨simdIter xs dx, r⟩ := by
  have h1 : SIMDIterable.len c (simdIter xs dx) = ok (xs.length / w) :=
    (simdIter_driver (represents_slice c xs) dx hw hu.1).len 0
  simp only [zip, h1, ok_bind,
    MixedRest.len_eq c r _ (fun s hs => ⟨(hu.2 s hs).1, (hu.2 s hs).2.1⟩)]
  by_cases h : ∃ s ∈ MixedRest.shapes r, s.1 / s.2 ≠ xs.length / w <;> simp [h]

/-- Specification: calls of `f` with each vector of `us` and the vectors of the other slices which
begin at the same position. -/
def mixedCalls {σ A : Type} (c : Cfg) (f : σ → A → Vector α w × γ → Res (A × σ)) (r : R) :
    Nat → List (Vector α w) → A → σ → Res (A × σ)
  | _, [], a, st => ok (a, st)
  | p, u :: us, a, st => do
    let v ← MixedRest.windows c r p
    let (a, st) ← f st a (u, v)
    mixedCalls c f r (p + w) us a st

/-- Specification: a complete pass. -/
def mixedPass {σ A : Type} (c : Cfg) (f : σ → A → Vector α w × γ → Res (A × σ)) (xs : List α)
    (dx : Vector α w) (r : R) (a : A) (st : σ) : Res (A × σ) :=
  if ∃ s ∈ MixedRest.shapes r, s.1 / s.2 ≠ xs.length / w then panic
  else do
    let (a, st) ← mixedCalls c f r 0 (fullWindows w xs) a st
    (if xs.length % w = 0 then ok (a, st)
      else (do
        let v ← MixedRest.tails c r (xs.length / w * w) (w - xs.length % w)
        f st a (padFront dx (leftover w xs), v)))

theorem mixed_next (c : Cfg) (xs : List α) (dx : Vector α w) (r : R) (i : Nat)
    (hu : Roomy c xs.length w (MixedRest.shapes r)) (hi : i < (fullWindows w xs).length) :
    SIMDZippedIterator.next c (⟨⟨i * w, ⟨xs⟩, dx⟩, r⟩ : Zip (SIMDIter (Slice α w) α w) R) =
      MixedRest.windows c r (i * w) >>= fun v =>
        ok (some ((fullWindows w xs)[i], v), ⟨⟨(i + 1) * w, ⟨xs⟩, dx⟩, r⟩) := by
  rw [fullWindows_length] at hi
  have h1 : (i + 1) * w ≤ xs.length / w * w := Nat.mul_le_mul_right w hi
  have h2 := Nat.div_mul_le_self xs.length w
  rw [Nat.succ_mul] at h1 ⊢
  have hn := simdIter_next_some (represents_slice c xs) (p := i * w) (d := dx) (by omega)
    (by have := hu.1; omega)
  have hx := MixedRest.next_eq c r (i * w) (fun s hs => by have := hu.2 s hs; omega)
  simp only [SIMDZippedIterator.next, Zip.next, SIMDIterable.scalarPos, ok_bind, hn, hx]
  congr 1
  funext v
  simp [fullWindows, windowAt]

theorem mixed_next_none (c : Cfg) (xs : List α) (dx : Vector α w) (r : R) (hw : 0 < w)
    (hu : Roomy c xs.length w (MixedRest.shapes r)) :
    SIMDZippedIterator.next c (⟨⟨xs.length / w * w, ⟨xs⟩, dx⟩, r⟩ :
        Zip (SIMDIter (Slice α w) α w) R) =
      ok (none, ⟨⟨xs.length / w * w, ⟨xs⟩, dx⟩, r⟩) := by
  have h1 := Nat.div_add_mod xs.length w
  have h3 := Nat.mod_lt xs.length hw
  rw [Nat.mul_comm] at h1
  have h4 := hu.1
  have hn := simdIter_next_none (represents_slice c xs) (p := xs.length / w * w) (d := dx) (by omega)
    (by omega)
  simp only [SIMDZippedIterator.next, Zip.next, SIMDIterable.scalarPos, ok_bind, hn]

theorem mixed_end (c : Cfg) (xs : List α) (dx : Vector α w) (r : R) (hw : 0 < w)
    (hu : Roomy c xs.length w (MixedRest.shapes r)) :
    SIMDZippedIterator.end_ c (⟨⟨xs.length / w * w, ⟨xs⟩, dx⟩, r⟩ :
        Zip (SIMDIter (Slice α w) α w) R) =
      if xs.length % w = 0 then ok (none, ⟨⟨xs.length, ⟨xs⟩, dx⟩, r⟩)
        else MixedRest.tails c r (xs.length / w * w) (w - xs.length % w) >>= fun v =>
          ok (some ((padFront dx (leftover w xs), v), w - xs.length % w),
            ⟨⟨xs.length, ⟨xs⟩, dx⟩, r⟩) := by
  have h1 := Nat.div_add_mod xs.length w
  have h3 := Nat.mod_lt xs.length hw
  rw [Nat.mul_comm] at h1
  have hm0 : xs.length / w * w = 0 ∨ w ≤ xs.length / w * w := by
    rcases Nat.eq_zero_or_pos (xs.length / w) with h | h
    · left; rw [h, Nat.zero_mul]
    · right; exact Nat.le_mul_of_pos_left w h
  have he := simdIter_end_exact (represents_slice c xs) (xs.length / w * w) dx hu.1
  simp only [SIMDZippedIterator.end_, Zip.end_, SIMDIterable.scalarPos, ok_bind, he]
  by_cases ha : xs.length % w = 0
  · rw [if_pos ha, if_pos (by omega)]
    simp only [ok_bind]
    rw [show xs.length / w * w = xs.length by omega]
  · rw [if_neg ha, if_neg (by omega), if_neg (by omega), if_neg (by omega),
      show xs.length - xs.length / w * w = xs.length % w by omega]
    have ht := MixedRest.end_eq c r (xs.length / w * w) (w - xs.length % w) (fun s hs => by
      have := hu.2 s hs
      omega)
    simp only [ok_bind, ht, leftover]

theorem mixed_reduceLoop {σ A : Type} (c : Cfg) (f : σ → A → Vector α w × γ → Res (A × σ))
    (xs : List α) (dx : Vector α w) (r : R) (hw : 0 < w)
    (hu : Roomy c xs.length w (MixedRest.shapes r)) :
    ∀ (k fuel : Nat) (a : A) (st : σ), k ≤ xs.length / w → k < fuel →
      zreduceLoop c f fuel
          (⟨⟨(xs.length / w - k) * w, ⟨xs⟩, dx⟩, r⟩ : Zip (SIMDIter (Slice α w) α w) R) a st =
        mixedCalls c f r ((xs.length / w - k) * w) ((fullWindows w xs).drop (xs.length / w - k)) a st
          >>= fun p => ok (⟨⟨xs.length / w * w, ⟨xs⟩, dx⟩, r⟩, p.1, p.2) := by
  have hl := fullWindows_length w xs
  intro k
  induction k with
  | zero =>
    intro fuel a st _ hf
    obtain ⟨fuel, rfl⟩ : ∃ g, fuel = g + 1 := ⟨fuel - 1, by omega⟩
    rw [Nat.sub_zero, List.drop_eq_nil_of_le (by omega)]
    simp only [zreduceLoop, mixed_next_none c xs dx r hw hu, ok_bind, mixedCalls]
  | succ k ih =>
    intro fuel a st hk hf
    obtain ⟨fuel, rfl⟩ : ∃ g, fuel = g + 1 := ⟨fuel - 1, by omega⟩
    generalize hi0 : xs.length / w - (k + 1) = i
    have hi : i < (fullWindows w xs).length := by omega
    rw [List.drop_eq_getElem_cons hi]
    simp only [zreduceLoop, mixed_next c xs dx r i hu hi, mixedCalls, bind_assoc, ok_bind]
    congr 1
    funext v
    congr 1
    funext p
    rw [show (i * w + w) = (i + 1) * w by rw [Nat.succ_mul],
      show i + 1 = xs.length / w - k by omega]
    exact ih fuel p.1 p.2 (by omega) (by omega)

/-- **C147**, `simd_reduce`, any closure, any number of slices of any lengths, element types and
widths: `zip` panics if the numbers of vectors differ. Otherwise the closure sees the full vectors of
the first slice, each with the vectors of the other slices which begin at the same element. -/
theorem C147_reduce_exact {σ A : Type} (c : Cfg) (xs : List α) (dx : Vector α w) (r : R) (hw : 0 < w)
    (hu : Roomy c xs.length w (MixedRest.shapes r)) (fuel : Nat) (a : A) (st : σ)
    (f : σ → A → Vector α w × γ → Res (A × σ)) (hfuel : xs.length / w < fuel) :
    (do
      let z ← zip c (simdIter xs dx) r
      let (_, a', st') ← zsimdReduce c fuel z a st f
      ok (a', st')) = mixedPass c f xs dx r a st := by
  rw [C147_zip c xs dx r hw hu, mixedPass]
  split
  · rfl
  · have h1 := mixed_reduceLoop c f xs dx r hw hu (xs.length / w) fuel a st (Nat.le_refl _) hfuel
    rw [Nat.sub_self, Nat.zero_mul, List.drop_zero] at h1
    simp only [ok_bind, simdIter, zsimdReduce, h1, bind_assoc, mixed_end c xs dx r hw hu]
    congr 1
    funext p
    by_cases ha : xs.length % w = 0
    · simp [ha]
    · simp only [ha, if_false, bind_assoc, ok_bind]
      congr 1
      funext v
      cases f p.2 p.1 (padFront dx (leftover w xs), v) <;> rfl

theorem zdoEachLoop_reduce {Z δ σ : Type} [SIMDZippedIterator Z δ] (c : Cfg) (f : FnMut σ δ Unit) :
    ∀ (fuel : Nat) (z : Z) (st : σ), zdoEachLoop c f fuel z st =
      zreduceLoop c (fun st (_ : Unit) v => f st v) fuel z () st >>= fun p => ok (p.1, p.2.2) := by
  intro fuel
  induction fuel with
  | zero => intro z st; rfl
  | succ fuel ih =>
    intro z st
    simp only [zdoEachLoop, zreduceLoop, bind_assoc]
    congr 1
    funext p
    obtain ⟨v, z'⟩ := p
    cases v with
    | none => rfl
    | some v =>
      simp only [bind_assoc]
      congr 1
      funext q
      exact ih z' q.2

/-- **C147**, `simd_do_each`, as `C147_reduce_exact`. -/
theorem C147_do_each_exact {σ : Type} (c : Cfg) (xs : List α) (dx : Vector α w) (r : R) (hw : 0 < w)
    (hu : Roomy c xs.length w (MixedRest.shapes r)) (fuel : Nat) (st : σ)
    (f : FnMut σ (Vector α w × γ) Unit) (hfuel : xs.length / w < fuel) :
    (do
      let z ← zip c (simdIter xs dx) r
      let (_, st') ← zsimdDoEach c fuel z st f
      ok ((), st')) = mixedPass c (fun st (_ : Unit) v => f st v) xs dx r () st := by
  rw [← C147_reduce_exact c xs dx r hw hu fuel () st (fun st (_ : Unit) v => f st v) hfuel]
  congr 1
  funext z
  simp only [zsimdDoEach, zsimdReduce, zdoEachLoop_reduce, bind_assoc, ok_bind]
  congr 1
  funext p
  congr 1
  funext q
  obtain ⟨t, z'⟩ := q
  cases t with
  | none => rfl
  | some t =>
    simp only [bind_assoc, ok_bind]

end Many

/-! ### Two slices: when a pass succeeds -/

section Pair
variable {α β : Type} {w w' : Nat} [Packable α]

/-- Whether `end_unchecked(p, e)` succeeds for a slice of `n` elements and vectors of `w` lanes. -/
def endOutcome (c : Cfg) (n w p e : Nat) : Res Unit :=
  if c.debug ∧ (n ≤ p ∨ w < n - p ∨ e ≠ w - (n - p)) then panic
  else if w < n then (if e < w then ok () else panic)
  else if n ≤ p then ok ()
  else if w < n + e then (if c.debug then panic else ub)
  else ok ()

/-- Whether a complete pass over slices of `n` and `n'` elements with vectors of `w` and `w'` lanes
succeeds. -/
def pairOutcome (c : Cfg) (n w n' w' : Nat) : Res Unit :=
  if n / w ≠ n' / w' then panic
  else if 0 < n / w ∧ n' < (n / w - 1) * w + w' then
    -- the first full vector which the second slice does not have
    (if c.debug ∨ n' < ((n' - w') / w + 1) * w then panic else ub)
  else if n % w = 0 then ok ()
  else endOutcome c n' w' (n / w * w) (w - n % w)

omit [Packable α] in
theorem mixedCalls_outcome {σ A : Type} (c : Cfg) (ys : List β) (dy : Vector β w') (q : Nat)
    (f : σ → A → Vector α w × Vector β w' × Unit → Res (A × σ)) (hw : 0 < w)
    (hf : ∀ st a v, ∃ b, f st a v = ok b) :
    ∀ (us : List (Vector α w)) (p : Nat) (a : A) (st : σ),
      (∃ b, mixedCalls c f ((⟨q, ⟨ys⟩, dy⟩, ()) : SIMDIter (Slice β w') β w' × Unit) p us a st = ok b ∧
        (us = [] ∨ p + (us.length - 1) * w + w' ≤ ys.length)) ∨
      (mixedCalls c f ((⟨q, ⟨ys⟩, dy⟩, ()) : SIMDIter (Slice β w') β w' × Unit) p us a st =
        (if c.debug ∨ ys.length < p +
          (if p + w' ≤ ys.length then (ys.length - w' - p) / w + 1 else 0) * w then panic else ub) ∧
        ¬ (us = [] ∨ p + (us.length - 1) * w + w' ≤ ys.length)) := by
  intro us
  induction us with
  | nil => intro p a st; exact .inl ⟨_, rfl, .inl rfl⟩
  | cons u us ih =>
    intro p a st
    simp only [mixedCalls, MixedRest.windows, windowSeen, List.length_cons, Nat.add_sub_cancel,
      reduceCtorEq, false_or]
    by_cases h : p + w' ≤ ys.length
    · obtain ⟨b, hb⟩ := hf st a (u, windowAt ys p w' h, ())
      simp only [dif_pos h, ok_bind, hb, if_pos h]
      cases hus : us with
      | nil =>
        refine .inl ⟨b, rfl, ?_⟩
        simp only [List.length_nil, Nat.zero_mul]
        omega
      | cons u' us' =>
        have hs : p + w + (us.length - 1) * w + w' = p + us.length * w + w' := by
          rw [hus, List.length_cons, Nat.add_sub_cancel, Nat.succ_mul]; omega
        rcases ih (p + w) b.1 b.2 with ⟨b', h1, h2⟩ | ⟨h1, h2⟩
        · refine .inl ⟨b', hus ▸ h1, ?_⟩
          rw [← hus, ← hs]
          exact h2.resolve_left (by simp [hus])
        · refine .inr ⟨?_, ?_⟩
          · rw [← hus, h1]
            have hk : p + w + (if p + w + w' ≤ ys.length then (ys.length - w' - (p + w)) / w + 1
                else 0) * w = p + ((ys.length - w' - p) / w + 1) * w := by
              by_cases h3 : p + w + w' ≤ ys.length
              · rw [if_pos h3, show ys.length - w' - p = ys.length - w' - (p + w) + w by omega,
                  Nat.add_div_right _ hw]
                rw [Nat.succ_mul, Nat.succ_mul, Nat.succ_mul]
                omega
              · rw [if_neg h3, Nat.div_eq_of_lt (by omega)]
                omega
            rw [hk]
          · rw [← hus, ← hs]
            exact fun h3 => h2 (.inr h3)
    · refine .inr ⟨?_, by omega⟩
      simp only [dif_neg h, if_neg h, Nat.zero_mul, Nat.add_zero]
      split <;> rfl

/-- **C147**: exactly when a complete pass over two slices panics or is undefined behaviour. -/
theorem C147_outcome {σ A : Type} (c : Cfg) (xs : List α) (ys : List β) (dx : Vector α w)
    (dy : Vector β w') (hw : 0 < w) (hu : Roomy c xs.length w [(ys.length, w')])
    (fuel : Nat) (a : A) (st : σ) (f : σ → A → Vector α w × Vector β w' × Unit → Res (A × σ))
    (hfuel : xs.length / w < fuel) (hf : ∀ st a v, ∃ b, f st a v = ok b) :
    (do
      let z ← zip c (simdIter xs dx) (simdIter ys dy, ())
      let _ ← zsimdReduce c fuel z a st f
      ok ()) = pairOutcome c xs.length w ys.length w' := by
  have h := C147_reduce_exact c xs dx (simdIter ys dy, ()) hw hu fuel a st f hfuel
  have h0 := congrArg (fun r => r >>= fun _ => ok ()) h
  simp only [bind_assoc, ok_bind] at h0
  rw [h0, mixedPass, pairOutcome]
  simp only [MixedRest.shapes, simdIter, List.mem_singleton, exists_eq_left]
  by_cases hm : xs.length / w = ys.length / w'
  · rw [if_neg (by simp [hm]), if_neg (by simp [hm])]
    have hc := mixedCalls_outcome c ys dy 0 f hw hf (fullWindows w xs) 0 a st
    have hl := fullWindows_length w xs
    have hnil : fullWindows w xs = [] ↔ xs.length / w = 0 := by rw [← hl, List.length_eq_zero_iff]
    rw [hnil, hl, Nat.zero_add, Nat.zero_add, Nat.zero_add, Nat.sub_zero] at hc
    rcases hc with ⟨b, h1, h2⟩ | ⟨h1, h2⟩
    · rw [if_neg (by omega)]
      simp only [h1, ok_bind]
      by_cases ha : xs.length % w = 0
      · simp [ha]
      · simp only [if_neg ha, bind_assoc, MixedRest.tails]
        unfold endSeen endOutcome badAccess
        have hok : ∀ v : Vector β w', (do
            let x ← (ok v : Res (Vector β w'))
            let vs ← (ok () : Res Unit)
            let v ← ok (x, vs)
            let _ ← f b.2 b.1 (padFront dx (leftover w xs), v)
            ok ()) = ok () := by
          intro v
          obtain ⟨b', hb'⟩ := hf b.2 b.1 (padFront dx (leftover w xs), v, ())
          simp only [ok_bind, hb']
        repeat' split
        all_goals first | exact hok _ | rfl
    · have hy : w' ≤ ys.length := by
        have h3 : 0 < ys.length / w' := by omega
        exact Classical.byContradiction fun h4 => by
          rw [Nat.div_eq_of_lt (by omega)] at h3; omega
      rw [if_pos (by omega)]
      simp only [h1, if_pos hy]
      split <;> rfl
  · rw [if_pos hm, if_pos (Ne.symm hm)]; rfl

/-- **C147**: undefined behaviour, exactly. Release builds only; either in a full vector, which needs
a second slice with narrower vectors, or in the last one. -/
theorem C147_ub_iff (c : Cfg) (n n' : Nat) :
    pairOutcome c n w n' w' = ub ↔
      c.debug = false ∧ n / w = n' / w' ∧
        ((0 < n / w ∧ n' < (n / w - 1) * w + w' ∧ ((n' - w') / w + 1) * w ≤ n') ∨
         (¬ (0 < n / w ∧ n' < (n / w - 1) * w + w') ∧ n % w ≠ 0 ∧ n / w * w < n' ∧ n' ≤ w' ∧
            w' < n' + (w - n % w))) := by
  unfold pairOutcome endOutcome
  generalize n / w * w = p
  generalize ((n' - w') / w + 1) * w = k
  generalize (n / w - 1) * w = l
  cases c.debug
  · simp only [Bool.false_eq_true, false_or, false_and, if_false, true_and]
    repeat' split
    all_goals simp only [reduceCtorEq, false_iff, true_iff]
    all_goals omega
  · simp only [true_or, true_and, if_true, Bool.true_eq_false, false_and, iff_false]
    repeat' split
    all_goals simp

/-- **C147**: every full vector exists if the second slice has vectors which are at least as wide. -/
theorem C147_wider (n n' : Nat) (h : w ≤ w') (hm : n / w = n' / w') :
    ¬ (0 < n / w ∧ n' < (n / w - 1) * w + w') := by
  intro ⟨h1, h2⟩
  have h3 := Nat.div_mul_le_self n' w'
  rw [← hm] at h3
  have h4 : (n / w - 1) * w ≤ (n / w - 1) * w' := Nat.mul_le_mul_left _ h
  have h5 : n / w * w' = (n / w - 1) * w' + w' := by
    conv => lhs; rw [show n / w = n / w - 1 + 1 by omega, Nat.succ_mul]
  omega

/-- **C147**: with narrower vectors in the second slice and two or more vectors, no pass succeeds if
the widths differ by a factor of two or more, as they do for all element types. -/
theorem C147_narrower (c : Cfg) (n n' : Nat) (hw' : 0 < w') (h : 2 * w' ≤ w) (h2 : 2 ≤ n / w) :
    pairOutcome c n w n' w' = panic ∨ pairOutcome c n w n' w' = ub := by
  unfold pairOutcome
  by_cases hm : n / w = n' / w'
  · have h3 := Nat.lt_mul_div_succ n' hw'
    rw [← hm, Nat.mul_succ] at h3
    have h4 : w' * 2 * (n / w - 1) ≤ w * (n / w - 1) := Nat.mul_le_mul_right _ (by omega)
    have h5 : w' * (n / w) = w' * (n / w - 1) + w' := by
      conv => lhs; rw [show n / w = n / w - 1 + 1 by omega, Nat.mul_succ]
    have h6 : w' * 1 ≤ w' * (n / w - 1) := Nat.mul_le_mul_left _ (by omega)
    rw [Nat.mul_right_comm] at h4
    rw [if_neg (by simpa using hm), if_pos ⟨by omega, by rw [Nat.mul_comm (n / w - 1)]; omega⟩]
    split
    · exact .inl rfl
    · exact .inr rfl
  · rw [if_pos hm]; exact .inl rfl

omit [Packable α] in
theorem mixedCalls_inside {σ A : Type} (c : Cfg) (ys : List β) (dy : Vector β w') (q : Nat)
    (f : σ → A → Vector α w × Vector β w' × Unit → Res (A × σ)) :
    ∀ (us : List (Vector α w)) (p : Nat) (a : A) (st : σ)
      (h : ∀ i : Fin us.length, p + i.val * w + w' ≤ ys.length),
      mixedCalls c f ((⟨q, ⟨ys⟩, dy⟩, ()) : SIMDIter (Slice β w') β w' × Unit) p us a st =
        (List.ofFn fun i : Fin us.length => (us[i], windowAt ys (p + i.val * w) w' (h i), ())).foldlM
          (fun (s : A × σ) v => f s.2 s.1 v) (a, st) := by
  intro us
  induction us with
  | nil => intro p a st _; rfl
  | cons u us ih =>
    intro p a st h
    have h0 : p + w' ≤ ys.length := by simpa using h ⟨0, by simp⟩
    have h1 : ∀ i : Fin us.length, p + w + i.val * w + w' ≤ ys.length := fun i => by
      have := h i.succ
      rw [Fin.val_succ, Nat.succ_mul] at this
      omega
    simp only [mixedCalls, MixedRest.windows, windowSeen, dif_pos h0, ok_bind, List.length_cons]
    rw [List.ofFn_succ, List.foldlM_cons]
    simp only [Fin.val_zero, Nat.zero_mul, Nat.add_zero, Fin.getElem_fin, List.getElem_cons_zero,
      Fin.val_succ, List.getElem_cons_succ]
    congr 1
    funext s
    rw [ih (p + w) s.1 s.2 h1]
    congr 2
    funext i
    simp only [Fin.getElem_fin, show p + w + i.val * w = p + (i.val + 1) * w by
      rw [Nat.succ_mul]; omega]

/-- **C147**, the part which holds: if the first slice consists of full vectors and the second one
reaches as far as the last of them, the closure sees elements with equal indices in every lane.
Missing: a first slice with a partial vector, and slices which end earlier (`C147_outcome`,
`C147_false`). -/
theorem C147_aligned_partial {σ A : Type} (c : Cfg) (xs : List α) (ys : List β) (dx : Vector α w)
    (dy : Vector β w') (hw : 0 < w) (hu : Roomy c xs.length w [(ys.length, w')])
    (fuel : Nat) (a : A) (st : σ) (f : σ → A → Vector α w × Vector β w' × Unit → Res (A × σ))
    (hfuel : xs.length / w < fuel) (hm : xs.length / w = ys.length / w') (ha : xs.length % w = 0)
    (hx : ∀ (i : Fin (xs.length / w)) (j : Fin w), i.val * w + j.val < xs.length)
    (hy : ∀ (i : Fin (xs.length / w)) (j : Fin w'), i.val * w + j.val < ys.length) :
    (do
      let z ← zip c (simdIter xs dx) (simdIter ys dy, ())
      let (_, a', st') ← zsimdReduce c fuel z a st f
      ok (a', st')) =
      (List.ofFn fun i : Fin (xs.length / w) =>
        ((Vector.ofFn fun j : Fin w => xs[i.val * w + j.val]'(hx i j)),
         (Vector.ofFn fun j : Fin w' => ys[i.val * w + j.val]'(hy i j)), ())).foldlM
        (fun (s : A × σ) v => f s.2 s.1 v) (a, st) := by
  have hw' : 0 < w' := (hu.2 _ (List.mem_singleton.mpr rfl)).1
  have h := C147_reduce_exact c xs dx (simdIter ys dy, ()) hw hu fuel a st f hfuel
  rw [h, mixedPass]
  have hl := fullWindows_length w xs
  simp only [MixedRest.shapes, simdIter, List.mem_singleton, exists_eq_left]
  rw [if_neg (by simp [hm])]
  simp only [ha, if_true]
  rw [mixedCalls_inside c ys dy 0 f (fullWindows w xs) 0 a st (fun i => by
    have := hy ⟨i.val, by rw [← hl]; exact i.isLt⟩ ⟨w' - 1, by omega⟩
    simp only at this
    omega)]
  have he : (List.ofFn fun i : Fin (fullWindows w xs).length =>
        ((fullWindows w xs)[i], windowAt ys (0 + i.val * w) w' (by
          have := hy ⟨i.val, by rw [← hl]; exact i.isLt⟩ ⟨w' - 1, by omega⟩
          simp only at this
          omega), ())) =
      (List.ofFn fun i : Fin (xs.length / w) =>
        ((Vector.ofFn fun j : Fin w => xs[i.val * w + j.val]'(hx i j)),
         (Vector.ofFn fun j : Fin w' => ys[i.val * w + j.val]'(hy i j)), ())) := by
    apply List.ext_getElem
    · simp [hl]
    · intro i h1 h2
      simp [fullWindows, windowAt]
  rw [he]
  cases (List.ofFn fun i : Fin (xs.length / w) =>
        ((Vector.ofFn fun j : Fin w => xs[i.val * w + j.val]'(hx i j)),
         (Vector.ofFn fun j : Fin w' => ys[i.val * w + j.val]'(hy i j)), ())).foldlM
        (fun (s : A × σ) v => f s.2 s.1 v) (a, st) <;> rfl

end Pair

/-- **C147 is false.** Release builds with eight and four elements in vectors of four and two lanes
read outside the second slice, and panic if it is sixteen and four; with five and eight elements in
vectors of two and four lanes, the last tuple has the fifth element of one slice in the lane of the
seventh of the other. -/
theorem C147_false :
    let run : (w w' n n' : Nat) → Res (List (List Nat × List Nat)) := fun w w' n n' => (do
      let z ← zip release64 (simdIter (w := w) ((List.range n).map (BitVec.ofNat 8)) (.replicate w 99))
        (simdIter (w := w') ((List.range n').map (BitVec.ofNat 8)) (.replicate w' 99), ())
      let (_, out, _) ← zsimdReduce release64 9 z [] ()
        (fun st out (v : Vector (BitVec 8) w × Vector (BitVec 8) w' × Unit) =>
          ok (out ++ [(v.1.toList.map BitVec.toNat, v.2.1.toList.map BitVec.toNat)], st))
      ok out)
    run 4 2 8 4 = ub ∧ run 8 2 16 4 = panic ∧ run 2 4 8 8 = panic ∧
    run 2 4 4 8 = ok [([0, 1], [0, 1, 2, 3]), ([2, 3], [2, 3, 4, 5])] ∧
    run 2 4 5 8 = ok [([0, 1], [0, 1, 2, 3]), ([2, 3], [2, 3, 4, 5]), ([99, 4], [99, 5, 6, 7])] ∧
    run 2 4 3 4 = ub := by
  refine ⟨?_, ?_, ?_, ?_, ?_, ?_⟩ <;> decide +kernel

/-- Non-vacuity: three slices with vectors of two, four and one lanes. -/
example : Roomy release64 4 2 (MixedRest.shapes
    ((simdIter (w := 4) (List.replicate 8 (1#8)) (.replicate 4 0),
      simdIter (w := 1) (List.replicate 2 (2#16)) (.replicate 1 0), ()) :
      SIMDIter (Slice (BitVec 8) 4) (BitVec 8) 4 ×
        SIMDIter (Slice (BitVec 16) 1) (BitVec 16) 1 × Unit)) ∧
    ¬ ∃ s ∈ [(8, 4), (2, 1)], s.1 / s.2 ≠ 4 / 2 := by
  simp [Roomy, MixedRest.shapes, simdIter, release64]

end Faster
