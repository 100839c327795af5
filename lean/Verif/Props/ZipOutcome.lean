import Verif.Props.ZipWidths
/-
C23, C147: when a complete pass over a zip of any number of slices of any lengths and numbers of
lanes returns, panics or is undefined behaviour.
-/
namespace Faster
open Res SIMDSized SIMDIterable SIMDIterator

/-! ### The outcome, from the lengths and widths alone -/

/-- The actions of a list in turn, up to the first which does not return. -/
def inTurn {A : Type} : List A → (A → Res Unit) → Res Unit
  | [], _ => ok ()
  | x :: l, f => f x >>= fun _ => inTurn l f

/-- `next_unchecked(p)` of slices with the given lengths and widths, one after the other. -/
def windowsOutcome (c : Cfg) (shapes : List (Nat × Nat)) (p : Nat) : Res Unit :=
  inTurn shapes fun s => if p + s.2 ≤ s.1 then ok () else if c.debug ∨ s.1 < p then panic else ub

/-- `end_unchecked(p, e)` of such slices. -/
def tailsOutcome (c : Cfg) (shapes : List (Nat × Nat)) (p e : Nat) : Res Unit :=
  inTurn shapes fun s => endOutcome c s.1 s.2 p e

/-- A complete pass over `n` elements in vectors of `w` lanes, zipped with such slices. -/
def manyOutcome (c : Cfg) (n w : Nat) (shapes : List (Nat × Nat)) : Res Unit :=
  if ∃ s ∈ shapes, s.1 / s.2 ≠ n / w then panic
  else do
    inTurn (List.range (n / w)) fun i => windowsOutcome c shapes (i * w)
    (if n % w = 0 then ok () else tailsOutcome c shapes (n / w * w) (w - n % w))

/-- The outcomes of the accesses depend on the lengths and widths only. -/
class MixedOutcome (R : Type) (γ : outParam Type) [ZipRest R γ] [MixedRest R γ] : Prop where
  windows_outcome : ∀ (c : Cfg) (r : R) (p : Nat),
    (MixedRest.windows c r p >>= fun _ => ok ()) = windowsOutcome c (MixedRest.shapes r) p
  tails_outcome : ∀ (c : Cfg) (r : R) (p e : Nat),
    (MixedRest.tails c r p e >>= fun _ => ok ()) = tailsOutcome c (MixedRest.shapes r) p e

instance instMixedOutcomeUnit : MixedOutcome Unit Unit where
  windows_outcome _ _ _ := rfl
  tails_outcome _ _ _ _ := rfl

theorem windowSeen_outcome {β : Type} (c : Cfg) (ys : List β) (w p : Nat) :
    (windowSeen c ys w p >>= fun _ => ok ()) =
      if p + w ≤ ys.length then ok () else if c.debug ∨ ys.length < p then panic else ub := by
  unfold windowSeen
  repeat' split
  all_goals rfl

theorem endSeen_outcome {β : Type} {w : Nat} (c : Cfg) (ys : List β) (dy : Vector β w) (p e : Nat) :
    (endSeen c ys dy p e >>= fun _ => ok ()) = endOutcome c ys.length w p e := by
  unfold endSeen endOutcome badAccess
  repeat' split
  all_goals rfl

theorem bind_void {A B : Type} (x : Res A) (y : Res B) :
    (x >>= fun a => y >>= fun b => ok (a, b) >>= fun _ => ok ()) =
      (x >>= fun _ => ok ()) >>= fun _ => y >>= fun _ => ok () := by
  cases x <;> cases y <;> rfl

instance instMixedOutcomeCons {β R γ : Type} {w : Nat} [ZipRest R γ] [MixedRest R γ]
    [MixedOutcome R γ] : MixedOutcome (SIMDIter (Slice β w) β w × R) (Vector β w × γ) where
  windows_outcome c r p := by
    have h := MixedOutcome.windows_outcome c r.2 p
    simp only [MixedRest.windows, MixedRest.shapes, windowsOutcome, inTurn, bind_assoc] at h ⊢
    rw [bind_void, h, windowSeen_outcome]
  tails_outcome c r p e := by
    have h := MixedOutcome.tails_outcome c r.2 p e
    simp only [MixedRest.tails, MixedRest.shapes, tailsOutcome, inTurn, bind_assoc] at h ⊢
    rw [bind_void, h, endSeen_outcome]

section
variable {α R γ : Type} {w : Nat} [Packable α] [ZipRest R γ] [MixedRest R γ] [MixedOutcome R γ]

omit [Packable α] in
theorem mixedCalls_void {σ A : Type} (c : Cfg) (f : σ → A → Vector α w × γ → Res (A × σ)) (r : R)
    (hf : ∀ st a v, ∃ b, f st a v = ok b) : ∀ (us : List (Vector α w)) (k : Nat) (a : A) (st : σ),
    (∃ b, mixedCalls c f r (k * w) us a st = ok b ∧
      inTurn (List.range' k us.length) (fun i => windowsOutcome c (MixedRest.shapes r) (i * w)) = ok ()) ∨
    (∀ b, mixedCalls c f r (k * w) us a st ≠ ok b) ∧
      (mixedCalls c f r (k * w) us a st >>= fun _ => ok ()) =
        inTurn (List.range' k us.length) (fun i => windowsOutcome c (MixedRest.shapes r) (i * w)) := by
  intro us
  induction us with
  | nil => intro k a st; exact .inl ⟨_, rfl, rfl⟩
  | cons u us ih =>
    intro k a st
    have h := MixedOutcome.windows_outcome c r (k * w)
    simp only [mixedCalls, List.length_cons, List.range'_succ, inTurn, ← h]
    cases hv : MixedRest.windows c r (k * w) with
    | ok v =>
      obtain ⟨b, hb⟩ := hf st a (u, v)
      simp only [ok_bind, hb]
      rw [← Nat.succ_mul]
      exact ih (k + 1) b.1 b.2
    | _ => exact .inr ⟨fun b => by simp, by simp⟩

/-- **C23**, **C147**: what becomes of a complete pass over any number of slices of any lengths and
numbers of lanes, for closures which return: exactly what the lengths and the numbers of lanes
say. -/
theorem C147_many_outcome {σ A : Type} (c : Cfg) (xs : List α) (dx : Vector α w) (r : R) (hw : 0 < w)
    (hu : Roomy c xs.length w (MixedRest.shapes r)) (fuel : Nat) (a : A) (st : σ)
    (f : σ → A → Vector α w × γ → Res (A × σ)) (hfuel : xs.length / w < fuel)
    (hf : ∀ st a v, ∃ b, f st a v = ok b) :
    (do
      let z ← zip c (simdIter xs dx) r
      let _ ← zsimdReduce c fuel z a st f
      ok ()) = manyOutcome c xs.length w (MixedRest.shapes r) := by
  have h := C147_reduce_exact c xs dx r hw hu fuel a st f hfuel
  have h0 := congrArg (fun r => r >>= fun _ => ok ()) h
  simp only [bind_assoc, ok_bind] at h0
  rw [h0, mixedPass, manyOutcome]
  split
  · rfl
  · have hv := mixedCalls_void c f r hf (fullWindows w xs) 0 a st
    rw [Nat.zero_mul, fullWindows_length, ← List.range_eq_range'] at hv
    rcases hv with ⟨b, h1, h2⟩ | ⟨h1, h2⟩
    · simp only [h1, ok_bind, h2]
      by_cases ha : xs.length % w = 0
      · simp [ha]
      · have ht := MixedOutcome.tails_outcome c r (xs.length / w * w) (w - xs.length % w)
        simp only [if_neg ha, bind_assoc, ← ht]
        cases hv : MixedRest.tails c r (xs.length / w * w) (w - xs.length % w) with
        | ok v =>
          obtain ⟨b', hb'⟩ := hf b.2 b.1 (padFront dx (leftover w xs), v)
          simp only [ok_bind, hb']
        | _ => rfl
    · rw [← h2]
      cases hm : mixedCalls c f r 0 (fullWindows w xs) a st with
      | ok b => exact absurd hm (h1 b)
      | _ => rfl

end

/-! ### What the outcome is -/

theorem inTurn_ok_iff {A : Type} (l : List A) (f : A → Res Unit) :
    inTurn l f = ok () ↔ ∀ x ∈ l, f x = ok () := by
  induction l with
  | nil => simp [inTurn]
  | cons x l ih =>
    simp only [inTurn, List.mem_cons, forall_eq_or_imp, ← ih]
    cases f x <;> simp

theorem inTurn_ub {A : Type} (l : List A) (f : A → Res Unit) (h : inTurn l f = ub) :
    ∃ x ∈ l, f x = ub := by
  induction l with
  | nil => simp [inTurn] at h
  | cons x l ih =>
    rw [inTurn] at h
    cases hx : f x with
    | ok _ =>
      rw [hx] at h
      obtain ⟨y, h1, h2⟩ := ih h
      exact ⟨y, List.mem_cons_of_mem _ h1, h2⟩
    | ub => exact ⟨x, List.mem_cons_self, hx⟩
    | panic => rw [hx] at h; cases h
    | hang => rw [hx] at h; cases h

/-- **C147**: a pass over any number of slices returns exactly if the pass over the first and each of
the others returns. -/
theorem C147_many_ok_iff (c : Cfg) (n w : Nat) (shapes : List (Nat × Nat)) :
    manyOutcome c n w shapes = ok () ↔ ∀ s ∈ shapes, pairOutcome c n w s.1 s.2 = ok () := by
  have key : ∀ s : Nat × Nat, pairOutcome c n w s.1 s.2 = ok () ↔
      s.1 / s.2 = n / w ∧ (∀ i < n / w, i * w + s.2 ≤ s.1) ∧
        (n % w = 0 ∨ endOutcome c s.1 s.2 (n / w * w) (w - n % w) = ok ()) := by
    intro s
    have hall : (∀ i < n / w, i * w + s.2 ≤ s.1) ↔ ¬ (0 < n / w ∧ s.1 < (n / w - 1) * w + s.2) := by
      constructor
      · intro h ⟨h1, h2⟩
        have := h (n / w - 1) (by omega)
        omega
      · intro h i hi
        have h2 : i * w ≤ (n / w - 1) * w := Nat.mul_le_mul_right w (by omega)
        have : 0 < n / w := by omega
        omega
    rw [hall]
    unfold pairOutcome
    by_cases h1 : n / w = s.1 / s.2
    · rw [if_neg (by simpa using h1)]
      by_cases h2 : 0 < n / w ∧ s.1 < (n / w - 1) * w + s.2
      · rw [if_pos h2]
        split <;> simp [h2]
      · rw [if_neg h2]
        by_cases h3 : n % w = 0
        · simp only [if_pos h3, true_iff]
          exact ⟨h1.symm, h2, .inl h3⟩
        · simp only [if_neg h3]
          exact ⟨fun h => ⟨h1.symm, h2, .inr h⟩, fun h => h.2.2.resolve_left h3⟩
    · rw [if_pos h1]
      simp [Ne.symm h1]
  simp only [key]
  unfold manyOutcome
  by_cases h1 : ∃ s ∈ shapes, s.1 / s.2 ≠ n / w
  · rw [if_pos h1]
    obtain ⟨s, hs, h2⟩ := h1
    simp only [reduceCtorEq, false_iff]
    exact fun h => h2 (h s hs).1
  · rw [if_neg h1]
    have h2 : ∀ s ∈ shapes, s.1 / s.2 = n / w := fun s hs =>
      Classical.byContradiction fun h => h1 ⟨s, hs, h⟩
    have hwin : inTurn (List.range (n / w)) (fun i => windowsOutcome c shapes (i * w)) = ok () ↔
        ∀ s ∈ shapes, ∀ i < n / w, i * w + s.2 ≤ s.1 := by
      rw [inTurn_ok_iff]
      simp only [windowsOutcome, inTurn_ok_iff, List.mem_range]
      constructor
      · intro h s hs i hi
        have := h i hi s hs
        by_cases hc : i * w + s.2 ≤ s.1
        · exact hc
        · rw [if_neg hc] at this
          split at this <;> simp at this
      · intro h i hi s hs
        rw [if_pos (h s hs i hi)]
    have htail : (if n % w = 0 then (ok () : Res Unit)
        else tailsOutcome c shapes (n / w * w) (w - n % w)) = ok () ↔
        ∀ s ∈ shapes, n % w = 0 ∨ endOutcome c s.1 s.2 (n / w * w) (w - n % w) = ok () := by
      by_cases h3 : n % w = 0
      · simp [h3]
      · rw [if_neg h3, tailsOutcome, inTurn_ok_iff]
        exact ⟨fun h s hs => .inr (h s hs), fun h s hs => (h s hs).resolve_left h3⟩
    constructor
    · intro h s hs
      cases hr : inTurn (List.range (n / w)) (fun i => windowsOutcome c shapes (i * w)) with
      | ok _ =>
        rw [hr] at h
        exact ⟨h2 s hs, hwin.1 hr s hs, htail.1 h s hs⟩
      | ub => rw [hr] at h; cases h
      | panic => rw [hr] at h; cases h
      | hang => rw [hr] at h; cases h
    · intro h
      rw [hwin.2 fun s hs => (h s hs).2.1]
      exact htail.2 fun s hs => (h s hs).2.2

/-- **C147**: if the pass is undefined behaviour, then in a release build, and for one of the
slices the pass over the first and that one does not return either. -/
theorem C147_many_ub (c : Cfg) (n w : Nat) (shapes : List (Nat × Nat))
    (h : manyOutcome c n w shapes = ub) :
    c.debug = false ∧ ∃ s ∈ shapes, pairOutcome c n w s.1 s.2 ≠ ok () := by
  refine ⟨?_, Classical.byContradiction fun h1 => ?_⟩
  · unfold manyOutcome at h
    split at h
    · cases h
    · cases hd : c.debug with
      | false => rfl
      | true =>
        exfalso
        have hw : ∀ p, windowsOutcome c shapes p ≠ ub := by
          intro p hp
          obtain ⟨s, -, hs⟩ := inTurn_ub _ _ hp
          simp only [hd, true_or, if_true] at hs
          split at hs <;> cases hs
        have ht : ∀ p e, tailsOutcome c shapes p e ≠ ub := by
          intro p e hp
          obtain ⟨s, -, hs⟩ := inTurn_ub _ _ hp
          unfold endOutcome at hs
          simp only [hd, true_and, if_true] at hs
          repeat' split at hs
          all_goals cases hs
        cases hr : inTurn (List.range (n / w)) (fun i => windowsOutcome c shapes (i * w)) with
        | ok _ =>
          rw [hr] at h
          simp only [ok_bind] at h
          split at h
          · cases h
          · exact ht _ _ h
        | ub =>
          obtain ⟨i, -, hi⟩ := inTurn_ub _ _ hr
          exact hw _ hi
        | panic => rw [hr] at h; cases h
        | hang => rw [hr] at h; cases h
  · have : manyOutcome c n w shapes = ok () := (C147_many_ok_iff c n w shapes).2 fun s hs =>
      Classical.byContradiction fun h2 => h1 ⟨s, hs, h2⟩
    rw [this] at h
    cases h

/-- Two slices: the outcome of `C147_outcome`. -/
example : manyOutcome release64 8 4 [(4, 2)] = ub ∧ pairOutcome release64 8 4 4 2 = ub ∧
    manyOutcome release64 5 2 [(5, 2), (8, 4)] = ok () ∧
    manyOutcome release64 8 4 [(8, 4), (4, 2)] = ub ∧
    manyOutcome release64 8 4 [(9, 2), (4, 2)] = panic := by decide +kernel

end Faster
