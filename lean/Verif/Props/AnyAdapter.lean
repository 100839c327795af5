import Verif.AnyAdapter
import Verif.Props.AdapterTrace
/-
C134: `SIMDAdapter` around an arbitrary implementation of `ExactSizeIterator`.
-/
namespace Faster
open Res SIMDSized SIMDIterable SIMDIterator

section C134
variable {ρ α : Type} {w : Nat} [ScalarIter ρ α]

/-- Call `next` of a scalar iterator at most `k` times, until it returns
`None`: the scalars, whether it returned `None`, and the iterator. -/
def pull (k : Nat) (s : ρ) : Res (List α × Bool × ρ) :=
  match k with
  | 0 => ok ([], false, s)
  | k + 1 => ScalarIter.next s >>= fun r =>
    match r with
    | (none, s') => ok ([], true, s')
    | (some x, s') => pull k s' >>= fun q => ok (x :: q.1, q.2)

/-- The number of scalars: all `k` calls where there was no `None`, fewer otherwise. -/
theorem pull_length (k : Nat) (s s' : ρ) (xs : List α) (e : Bool) (h : pull k s = ok (xs, e, s')) :
    if e then xs.length < k else xs.length = k := by
  induction k generalizing s xs with
  | zero =>
    simp only [pull, ok.injEq, Prod.mk.injEq] at h
    obtain ⟨rfl, rfl, rfl⟩ := h
    simp
  | succ k ih =>
    simp only [pull] at h
    cases h1 : (ScalarIter.next s : Res (Option α × ρ)) with
    | ok r =>
      obtain ⟨r, s1⟩ := r
      rw [h1, ok_bind] at h
      cases r with
      | none =>
        simp only [ok.injEq, Prod.mk.injEq] at h
        obtain ⟨rfl, rfl, rfl⟩ := h
        simp
      | some x =>
        simp only at h
        cases h2 : (pull k s1 : Res (List α × Bool × ρ)) with
        | ok q =>
          obtain ⟨ys, e', s2⟩ := q
          rw [h2, ok_bind] at h
          simp only [ok.injEq, Prod.mk.injEq] at h
          obtain ⟨rfl, rfl, rfl⟩ := h
          have := ih s1 ys h2
          cases e' <;> simp at this ⊢ <;> omega
        | _ => rw [h2] at h; cases h
    | _ => rw [h1] at h; cases h

/-- Lanes `o, o+1, …` replaced by the scalars `xs`. -/
def fillFrom (s : Vector α w) (o : Nat) (xs : List α) : Vector α w :=
  Vector.ofFn fun j => if h : o ≤ j.val ∧ j.val - o < xs.length then xs[j.val - o]'h.2 else s[j]

/-- Lanes `o, o-1, …` replaced by the scalars `xs`. -/
def fillDown (s : Vector α w) (o : Nat) (xs : List α) : Vector α w :=
  Vector.ofFn fun j => if h : j.val ≤ o ∧ o - j.val < xs.length then xs[o - j.val]'h.2 else s[j]

theorem fillFrom_nil (s : Vector α w) (o : Nat) : fillFrom s o [] = s := by
  ext j hj; simp [fillFrom]

theorem fillDown_nil (s : Vector α w) (o : Nat) : fillDown s o [] = s := by
  ext j hj; simp [fillDown]

theorem fillFrom_cons (s : Vector α w) (o : Nat) (ho : o < w) (x : α) (xs : List α) :
    fillFrom (s.set o x) (o + 1) xs = fillFrom s o (x :: xs) := by
  ext j hj
  simp only [fillFrom, Vector.getElem_ofFn, Fin.getElem_fin, Vector.getElem_set, List.length_cons]
  by_cases h : j = o
  · subst h
    rw [dif_neg (by omega), dif_pos (by omega)]
    simp
  · by_cases h2 : o + 1 ≤ j ∧ j - (o + 1) < xs.length
    · rw [dif_pos h2, dif_pos (by omega), List.getElem_cons, dif_neg (by omega)]
      congr 1
    · rw [dif_neg h2, dif_neg (by omega), if_neg (by omega)]

theorem fillDown_cons (s : Vector α w) (o : Nat) (h0 : 0 < o) (ho : o < w) (x : α) (xs : List α) :
    fillDown (s.set o x) (o - 1) xs = fillDown s o (x :: xs) := by
  ext j hj
  simp only [fillDown, Vector.getElem_ofFn, Fin.getElem_fin, Vector.getElem_set, List.length_cons]
  by_cases h : j = o
  · subst h
    rw [dif_neg (by omega), dif_pos (by omega)]
    simp
  · by_cases h2 : j ≤ o - 1 ∧ o - 1 - j < xs.length
    · rw [dif_pos h2, dif_pos (by omega), List.getElem_cons, dif_neg (by omega)]
      congr 1; omega
    · rw [dif_neg h2, dif_neg (by omega), if_neg (by omega)]

theorem fillDown_single (s : Vector α w) (hw : 0 < w) (x : α) : fillDown s 0 [x] = s.set 0 x := by
  ext j hj
  simp only [fillDown, Vector.getElem_ofFn, Fin.getElem_fin, Vector.getElem_set, List.length_cons,
    List.length_nil]
  by_cases h : 0 = j
  · subst h; simp
  · rw [dif_neg (by omega), if_neg h]

/-- The loop of `next`. -/
theorem any_nextLoop (c : Cfg) (d : Vector α w) (p : Nat) :
    ∀ (n o : Nat) (t : Vector α w) (s : ρ), o + n ≤ w →
    AnyAdapter.nextLoop c n o ⟨s, t, d, p⟩ = (pull n s >>= fun q =>
      if q.2.1 then panic else ok ⟨q.2.2, fillFrom t o q.1, d, p⟩) := by
  intro n
  induction n with
  | zero => intro o t s _; simp [AnyAdapter.nextLoop, pull, fillFrom_nil]
  | succ n ih =>
    intro o t s h
    simp only [AnyAdapter.nextLoop, pull]
    cases h1 : (ScalarIter.next s : Res (Option α × ρ)) with
    | ok r =>
      obtain ⟨r, s1⟩ := r
      simp only [ok_bind]
      cases r with
      | none => simp
      | some x =>
        simp only
        rw [replaceUnchecked_ok (by omega)]
        simp only [ok_bind]
        rw [ih (o + 1) _ s1 (by omega)]
        cases (pull n s1 : Res (List α × Bool × ρ)) with
        | ok q =>
          obtain ⟨xs, e, s2⟩ := q
          simp only [ok_bind]
          rw [fillFrom_cons t o (by omega)]
        | _ => rfl
    | _ => rfl

/-- **C134**, `next` in every state, around any scalar iterator: the length is
asked for once; where it is large enough `w` scalars are taken, which are the
lanes of the vector in order; a missing scalar panics. -/
theorem C134_next (c : Cfg) (a : AnyAdapter ρ α w) :
    next c a = (uadd c a.position w >>= fun e => ScalarIter.len a.iter >>= fun len =>
      if e ≤ len then
        pull w a.iter >>= fun q =>
          if q.2.1 then panic
          else ok (some (fillFrom a.scratch 0 q.1), ⟨q.2.2, fillFrom a.scratch 0 q.1, a.default, e⟩)
      else ok (none, a)) := by
  obtain ⟨s, t, d, p⟩ := a
  simp only [SIMDIterable.next, AnyAdapter.next, SIMDSized.scalarLen]
  cases he : uadd c p w with
  | ok e =>
    simp only [ok_bind]
    cases (ScalarIter.len s : Res Nat) with
    | ok len =>
      simp only [ok_bind]
      split
      · rw [any_nextLoop c d p w 0 t s (by omega)]
        cases (pull w s : Res (List α × Bool × ρ)) with
        | ok q =>
          simp only [ok_bind]
          split
          · rfl
          · simp only [ok_bind, AnyAdapter.advance, he]
        | _ => rfl
      · rfl
    | _ => rfl
  | _ => rfl

/-- The vector of `next` where `w` scalars were taken: these scalars. -/
theorem fillFrom_toList (t : Vector α w) (xs : List α) (h : xs.length = w) :
    (fillFrom t 0 xs).toList = xs := by
  apply List.ext_getElem
  · simp [h]
  · intro i h1 h2
    simp [fillFrom, h2]

/-- The loop of `end` in debug builds: at most `o + 1` scalars are taken; when
there are that many the counter underflows. -/
theorem any_endLoop_debug (c : Cfg) (hd : c.debug = true) :
    ∀ (o fuel : Nat) (t : Vector α w) (s : ρ), o < w → o + 1 ≤ fuel →
    AnyAdapter.endLoop c fuel s o t = (pull (o + 1) s >>= fun q =>
      if q.2.1 then ok (q.2.2, fillDown t o q.1, o - q.1.length) else panic) := by
  intro o
  induction o with
  | zero =>
    intro fuel t s ho hf
    obtain ⟨fuel, rfl⟩ : ∃ k, fuel = k + 1 := ⟨fuel - 1, by omega⟩
    simp only [AnyAdapter.endLoop, pull]
    cases h1 : (ScalarIter.next s : Res (Option α × ρ)) with
    | ok r =>
      obtain ⟨r, s1⟩ := r
      simp only [ok_bind]
      cases r with
      | none => simp [fillDown_nil]
      | some x =>
        simp only
        rw [replaceUnchecked_ok ho]
        simp [usub, hd]
    | _ => rfl
  | succ o ih =>
    intro fuel t s ho hf
    obtain ⟨fuel, rfl⟩ : ∃ k, fuel = k + 1 := ⟨fuel - 1, by omega⟩
    rw [pull]
    simp only [AnyAdapter.endLoop]
    cases h1 : (ScalarIter.next s : Res (Option α × ρ)) with
    | ok r =>
      obtain ⟨r, s1⟩ := r
      simp only [ok_bind]
      cases r with
      | none => simp [fillDown_nil]
      | some x =>
        simp only
        rw [replaceUnchecked_ok ho]
        simp only [ok_bind]
        rw [usub_ok (by omega)]
        simp only [ok_bind, Nat.add_sub_cancel]
        rw [ih fuel _ s1 (by omega) (by omega)]
        cases (pull (o + 1) s1 : Res (List α × Bool × ρ)) with
        | ok q =>
          obtain ⟨xs, e, s2⟩ := q
          simp only [ok_bind, List.length_cons]
          rw [← fillDown_cons t (o + 1) (by omega) ho, Nat.add_sub_cancel,
            show o + 1 - (xs.length + 1) = o - xs.length by omega]
        | _ => rfl
    | _ => rfl

/-- The loop of `end` in release builds: at most `o + 2` calls of `next`; a
scalar from the last one is written out of bounds. -/
theorem any_endLoop_release (c : Cfg) (hd : c.debug = false) (hu : w < c.usize) :
    ∀ (o fuel : Nat) (t : Vector α w) (s : ρ), o < w → o + 2 ≤ fuel →
    AnyAdapter.endLoop c fuel s o t = (pull (o + 2) s >>= fun q =>
      if q.2.1 then ok (q.2.2, fillDown t o q.1, (o + c.usize - q.1.length) % c.usize) else ub) := by
  intro o
  induction o with
  | zero =>
    intro fuel t s ho hf
    obtain ⟨fuel, rfl⟩ : ∃ k, fuel = k + 2 := ⟨fuel - 2, by omega⟩
    simp only [AnyAdapter.endLoop, pull]
    cases h1 : (ScalarIter.next s : Res (Option α × ρ)) with
    | ok r =>
      obtain ⟨r, s1⟩ := r
      simp only [ok_bind]
      cases r with
      | none => simp [fillDown_nil]
      | some x =>
        simp only
        rw [replaceUnchecked_ok ho]
        have e1 : usub c 0 1 = ok (c.usize - 1) := by
          simp only [usub, show ¬ 1 ≤ 0 by omega, if_false, hd, Bool.false_eq_true]
          rw [Nat.add_zero, Nat.mod_eq_of_lt (by omega)]
        simp only [ok_bind, e1]
        cases h2 : (ScalarIter.next s1 : Res (Option α × ρ)) with
        | ok r =>
          obtain ⟨r, s2⟩ := r
          simp only [ok_bind]
          cases r with
          | none =>
            simp only [ok_bind, if_true, List.length_cons, List.length_nil, Nat.zero_add]
            rw [fillDown_single t ho, Nat.mod_eq_of_lt (by omega)]
          | some y =>
            simp [Packed.replaceUnchecked, debugAssert, hd, show ¬ c.usize - 1 < w by omega]
        | _ => rfl
    | _ => rfl
  | succ o ih =>
    intro fuel t s ho hf
    obtain ⟨fuel, rfl⟩ : ∃ k, fuel = k + 1 := ⟨fuel - 1, by omega⟩
    rw [pull]
    simp only [AnyAdapter.endLoop]
    cases h1 : (ScalarIter.next s : Res (Option α × ρ)) with
    | ok r =>
      obtain ⟨r, s1⟩ := r
      simp only [ok_bind]
      cases r with
      | none =>
        simp only [ok_bind, if_true, List.length_nil, Nat.sub_zero, fillDown_nil]
        rw [Nat.add_mod_right, Nat.mod_eq_of_lt (by omega)]
      | some x =>
        simp only
        rw [replaceUnchecked_ok ho]
        simp only [ok_bind]
        rw [usub_ok (by omega)]
        simp only [ok_bind, Nat.add_sub_cancel]
        rw [ih fuel _ s1 (by omega) (by omega)]
        cases (pull (o + 2) s1 : Res (List α × Bool × ρ)) with
        | ok q =>
          obtain ⟨xs, e, s2⟩ := q
          simp only [ok_bind, List.length_cons]
          rw [← fillDown_cons t (o + 1) (by omega) ho, Nat.add_sub_cancel,
            show o + 1 + c.usize - (xs.length + 1) = o + c.usize - xs.length by omega]
        | _ => rfl
    | _ => rfl

/-- `finalize`: the position becomes the length which the wrapped iterator
reports then; where this is a step back debug builds panic. -/
theorem any_finalize (c : Cfg) (a : AnyAdapter ρ α w) (hp : a.position < c.usize)
    (hl : ∀ L, (ScalarIter.len a.iter : Res Nat) = ok L → L < c.usize) :
    finalize c a = (ScalarIter.len a.iter >>= fun L =>
      if c.debug ∧ L < a.position then panic else ok { a with position := L }) := by
  simp only [finalize, SIMDSized.scalarLen, SIMDIterable.scalarPos, SIMDIterable.advance,
    AnyAdapter.advance]
  cases h : (ScalarIter.len a.iter : Res Nat) with
  | ok L =>
    have hL := hl L h
    simp only [ok_bind]
    by_cases h1 : a.position ≤ L
    · rw [usub_ok h1, ok_bind, uadd_ok (by omega), if_neg (by omega),
        show a.position + (L - a.position) = L by omega]
      rfl
    · cases hd : c.debug
      · have e1 : usub c L a.position = ok (c.usize + L - a.position) := by
          simp only [usub, h1, if_false, hd, Bool.false_eq_true]
          rw [Nat.mod_eq_of_lt (by omega)]
        have e2 : uadd c a.position (c.usize + L - a.position) = ok L := by
          simp only [uadd, hd, Bool.false_eq_true, if_false]
          rw [if_neg (by omega), show a.position + (c.usize + L - a.position) = L + c.usize by omega,
            Nat.add_mod_right, Nat.mod_eq_of_lt hL]
        rw [e1, ok_bind, e2]
        simp
      · simp [usub, h1, hd, show L < a.position by omega]
  | _ => rfl

/-- **C134**, `end` in every state, around any scalar iterator, with any fuel
from `w + 1` on (so it always stops). Where the reported length is more than
the position, scalars are taken until `None`: at most `w`, otherwise debug
builds panic (already at the `w`-th scalar) and release builds write out of
bounds. The scalars are stored backwards from the last lane; the position is
set to the length reported afterwards. -/
theorem C134_end (c : Cfg) (a : AnyAdapter ρ α w) (fuel : Nat) (hw : 0 < w) (hu : w < c.usize)
    (hp : a.position < c.usize)
    (hl : ∀ (xs : List α) (s' : ρ) L, pull (if c.debug then w else w + 1) a.iter = ok (xs, true, s') →
      (ScalarIter.len s' : Res Nat) = ok L → L < c.usize)
    (hf : w + 1 ≤ fuel) :
    AnyAdapter.endFuel c fuel a = (ScalarIter.len a.iter >>= fun len =>
      if a.position < len then
        pull (if c.debug then w else w + 1) a.iter >>= fun q =>
          if q.2.1 then
            ScalarIter.len q.2.2 >>= fun len' =>
              if c.debug ∧ len' < a.position then panic
              else ok (some (fillDown a.default (w - 1) q.1, (w - 1 + c.usize - q.1.length) % c.usize),
                ⟨q.2.2, fillDown a.default (w - 1) q.1, a.default, len'⟩)
          else badAccess c
      else ok (none, a)) := by
  obtain ⟨s, t, d, p⟩ := a
  simp only [AnyAdapter.endFuel, SIMDSized.scalarLen]
  cases (ScalarIter.len s : Res Nat) with
  | ok len =>
    simp only [ok_bind]
    split
    · rw [usub_ok (by omega), ok_bind]
      cases hd : c.debug
      · rw [any_endLoop_release c hd hu (w - 1) fuel d s (by omega) (by omega),
          show w - 1 + 2 = w + 1 by omega]
        simp only [Bool.false_eq_true, if_false, false_and]
        cases hq : (pull (w + 1) s : Res (List α × Bool × ρ)) with
        | ok q =>
          obtain ⟨xs, e, s'⟩ := q
          cases e
          · simp [badAccess, hd]
          · simp only [ok_bind, if_true]
            rw [any_finalize c ⟨s', _, d, p⟩ hp (fun L => hl xs s' L (by simpa [hd] using hq))]
            simp only [hd, Bool.false_eq_true, false_and, if_false]
            cases (ScalarIter.len s' : Res Nat) <;> rfl
        | _ => rfl
      · rw [any_endLoop_debug c hd (w - 1) fuel d s (by omega) (by omega),
          show w - 1 + 1 = w by omega]
        simp only [if_true, true_and]
        cases hq : (pull w s : Res (List α × Bool × ρ)) with
        | ok q =>
          obtain ⟨xs, e, s'⟩ := q
          cases e
          · simp [badAccess, hd]
          · have hx := pull_length w s s' xs true hq
            simp only [if_true] at hx
            simp only [ok_bind, if_true]
            rw [any_finalize c ⟨s', _, d, p⟩ hp (fun L => hl xs s' L (by simpa [hd] using hq))]
            simp only [hd, true_and]
            have e2 : (w - 1 + c.usize - xs.length) % c.usize = w - 1 - xs.length := by
              rw [show w - 1 + c.usize - xs.length = w - 1 - xs.length + c.usize by omega,
                Nat.add_mod_right, Nat.mod_eq_of_lt (by omega)]
            rw [e2]
            cases (ScalarIter.len s' : Res Nat) with
            | ok L =>
              simp only [ok_bind]
              split <;> rfl
            | _ => rfl
        | _ => rfl
    · rfl
  | _ => rfl

/-- `end` always stops: more fuel for its loop changes nothing. -/
theorem C134_end_stops (c : Cfg) (a : AnyAdapter ρ α w) (fuel : Nat) (hw : 0 < w) (hu : w < c.usize)
    (hp : a.position < c.usize)
    (hl : ∀ (xs : List α) (s' : ρ) L, pull (if c.debug then w else w + 1) a.iter = ok (xs, true, s') →
      (ScalarIter.len s' : Res Nat) = ok L → L < c.usize)
    (hf : w + 1 ≤ fuel) : AnyAdapter.endFuel c fuel a = end_ c a := by
  rw [C134_end c a fuel hw hu hp hl hf]
  exact (C134_end c a (w + 1) hw hu hp hl (Nat.le_refl _)).symm

/-- What is assumed of a safe implementation of `ExactSizeIterator`: in the
states `P` which it can be in, no undefined behaviour of its own, and `len` is
a `usize`. -/
structure SafeScalars (c : Cfg) {ρ α : Type} [ScalarIter ρ α] (P : ρ → Prop) : Prop where
  next : ∀ s : ρ, P s → (ScalarIter.next s : Res (Option α × ρ)) ≠ ub
  closed : ∀ (s s' : ρ) (r : Option α), P s → ScalarIter.next s = ok (r, s') → P s'
  len : ∀ s : ρ, P s → (ScalarIter.len s : Res Nat) ≠ ub
  usize : ∀ (s : ρ) L, P s → (ScalarIter.len s : Res Nat) = ok L → L < c.usize

theorem pull_closed {c : Cfg} {P : ρ → Prop} (hs : SafeScalars c P) (k : Nat) (s s' : ρ) (xs : List α)
    (e : Bool) (hP : P s) (h : pull k s = ok (xs, e, s')) : P s' := by
  induction k generalizing s xs with
  | zero =>
    simp only [pull, ok.injEq, Prod.mk.injEq] at h
    obtain ⟨rfl, rfl, rfl⟩ := h
    exact hP
  | succ k ih =>
    simp only [pull] at h
    cases h1 : (ScalarIter.next s : Res (Option α × ρ)) with
    | ok r =>
      obtain ⟨r, s1⟩ := r
      have h3 := hs.closed s s1 r hP h1
      rw [h1, ok_bind] at h
      cases r with
      | none =>
        simp only [ok.injEq, Prod.mk.injEq] at h
        obtain ⟨rfl, rfl, rfl⟩ := h
        exact h3
      | some x =>
        simp only at h
        cases h2 : (pull k s1 : Res (List α × Bool × ρ)) with
        | ok q =>
          obtain ⟨ys, e', s2⟩ := q
          rw [h2, ok_bind] at h
          simp only [ok.injEq, Prod.mk.injEq] at h
          obtain ⟨rfl, rfl, rfl⟩ := h
          exact ih s1 ys h3 h2
        | _ => rw [h2] at h; cases h
    | _ => rw [h1] at h; cases h

theorem pull_ne_ub {c : Cfg} {P : ρ → Prop} (hs : SafeScalars c P) (k : Nat) (s : ρ) (hP : P s) :
    (pull k s : Res (List α × Bool × ρ)) ≠ ub := by
  induction k generalizing s with
  | zero => simp [pull]
  | succ k ih =>
    simp only [pull]
    cases h1 : (ScalarIter.next s : Res (Option α × ρ)) with
    | ok r =>
      obtain ⟨r, s1⟩ := r
      cases r with
      | none => simp
      | some x =>
        simp only [ok_bind]
        cases h2 : (pull k s1 : Res (List α × Bool × ρ)) with
        | ub => exact absurd h2 (ih s1 (hs.closed s s1 _ hP h1))
        | _ => simp
    | ub => exact absurd h1 (hs.next s hP)
    | _ => simp

/-- One call reads or writes out of bounds exactly where `end` is called in a
release build, the reported length is more than the position, and more than
`w` scalars come before the first `None`. -/
theorem C134_step_ub (c : Cfg) {P : ρ → Prop} (hs : SafeScalars c P) (a : AnyAdapter ρ α w)
    (hP : P a.iter) (hw : 0 < w)
    (hu : w < c.usize) (hp : a.position < c.usize) (op : StreamOp) :
    (op.step c a : Res (StreamOut α w × AnyAdapter ρ α w)) = ub ↔
      op = .end_ ∧ c.debug = false ∧ (∃ L, (ScalarIter.len a.iter : Res Nat) = ok L ∧ a.position < L) ∧
        ∃ xs s', (pull (w + 1) a.iter : Res (List α × Bool × ρ)) = ok (xs, false, s') := by
  have hlen := hs.len a.iter hP
  cases op with
  | next =>
    simp only [StreamOp.step, C134_next, reduceCtorEq, false_and, iff_false]
    have h1 : uadd c a.position w ≠ ub := by
      simp only [uadd]
      split
      · simp
      · cases c.debug <;> simp
    cases h2 : uadd c a.position w with
    | ub => exact absurd h2 h1
    | ok e =>
      simp only [ok_bind]
      cases h3 : (ScalarIter.len a.iter : Res Nat) with
      | ub => exact absurd h3 hlen
      | ok L =>
        simp only [ok_bind]
        split
        · cases h4 : (pull w a.iter : Res (List α × Bool × ρ)) with
          | ub => exact absurd h4 (pull_ne_ub hs _ _ hP)
          | ok q =>
            simp only [ok_bind]
            split <;> simp
          | _ => simp
        · simp
      | _ => simp
    | _ => simp
  | end_ =>
    have he : (end_ c a : Res (Option (Vector α w × Nat) × AnyAdapter ρ α w)) = _ :=
      C134_end c a (w + 1) hw hu hp
        (fun xs s' L h6 => hs.usize s' L (pull_closed hs _ _ _ _ _ hP h6)) (Nat.le_refl _)
    simp only [StreamOp.step, he, true_and]
    cases h3 : (ScalarIter.len a.iter : Res Nat) with
    | ub => exact absurd h3 hlen
    | ok L =>
      simp only [ok_bind, ok.injEq, exists_eq_left']
      split
      · rename_i hpl
        simp only [hpl, true_and]
        cases hd : c.debug
        · simp only [Bool.false_eq_true, if_false, false_and, true_and]
          cases h4 : (pull (w + 1) a.iter : Res (List α × Bool × ρ)) with
          | ub => exact absurd h4 (pull_ne_ub hs _ _ hP)
          | ok q =>
            obtain ⟨xs, e, s'⟩ := q
            cases e
            · simp [badAccess, hd]
            · simp only [ok_bind, if_true]
              cases h5 : (ScalarIter.len s' : Res Nat) with
              | ub => exact absurd h5 (hs.len s' (pull_closed hs _ _ _ _ _ hP h4))
              | _ => simp
          | _ => simp
        · simp only [if_true, true_and, Bool.true_eq_false, false_and, iff_false]
          cases h4 : (pull w a.iter : Res (List α × Bool × ρ)) with
          | ub => exact absurd h4 (pull_ne_ub hs _ _ hP)
          | ok q =>
            obtain ⟨xs, e, s'⟩ := q
            cases e
            · simp [badAccess, hd]
            · simp only [ok_bind, if_true]
              cases h5 : (ScalarIter.len s' : Res Nat) with
              | ub => exact absurd h5 (hs.len s' (pull_closed hs _ _ _ _ _ hP h4))
              | ok L' =>
                simp only [ok_bind]
                split <;> simp
              | _ => simp
          | _ => simp
      · rename_i hpl
        simp [hpl]
    | _ => simp
  | advance k =>
    simp only [StreamOp.step, SIMDIterable.advance, AnyAdapter.advance, reduceCtorEq, false_and,
      iff_false, uadd]
    split
    · simp
    · cases c.debug <;> simp
  | scalarPos => simp [StreamOp.step, SIMDIterable.scalarPos]
  | len =>
    simp only [StreamOp.step, SIMDIterable.len, reduceCtorEq, false_and, iff_false]
    cases h3 : (ScalarIter.len a.iter : Res Nat) with
    | ub => exact absurd h3 hlen
    | ok L => simp [udiv, show w ≠ 0 by omega]
    | _ => simp

/-- `ScalarIter.next` was called some number of times; it returned the scalars
`xs`, and perhaps `None` in between. -/
inductive Took : ρ → List α → ρ → Prop where
  | refl (s : ρ) : Took s [] s
  | item {s s1 s' : ρ} {x : α} {xs : List α} :
      ScalarIter.next s = ok (some x, s1) → Took s1 xs s' → Took s (x :: xs) s'
  | none {s s1 s' : ρ} {xs : List α} :
      ScalarIter.next s = ok (none, s1) → Took s1 xs s' → Took s xs s'

theorem Took.trans {s s1 s2 : ρ} {xs ys : List α} (h1 : Took s xs s1) (h2 : Took s1 ys s2) :
    Took s (xs ++ ys) s2 := by
  induction h1 with
  | refl => exact h2
  | item h _ ih => exact .item h (ih h2)
  | none h _ ih => exact .none h (ih h2)

theorem pull_took (k : Nat) (s s' : ρ) (xs : List α) (e : Bool) (h : pull k s = ok (xs, e, s')) :
    Took s xs s' := by
  induction k generalizing s xs with
  | zero =>
    simp only [pull, ok.injEq, Prod.mk.injEq] at h
    obtain ⟨rfl, rfl, rfl⟩ := h
    exact .refl _
  | succ k ih =>
    simp only [pull] at h
    cases h1 : (ScalarIter.next s : Res (Option α × ρ)) with
    | ok r =>
      obtain ⟨r, s1⟩ := r
      rw [h1, ok_bind] at h
      cases r with
      | none =>
        simp only [ok.injEq, Prod.mk.injEq] at h
        obtain ⟨rfl, rfl, rfl⟩ := h
        exact .none h1 (.refl _)
      | some x =>
        simp only at h
        cases h2 : (pull k s1 : Res (List α × Bool × ρ)) with
        | ok q =>
          obtain ⟨ys, e', s2⟩ := q
          rw [h2, ok_bind] at h
          simp only [ok.injEq, Prod.mk.injEq] at h
          obtain ⟨rfl, rfl, rfl⟩ := h
          exact .item h1 (ih s1 ys h2)
        | _ => rw [h2] at h; cases h
    | _ => rw [h1] at h; cases h

/-- The scalars of a vector of `end`, read backwards. -/
theorem fillDown_delivered (c : Cfg) (d : Vector α w) (xs : List α) (h : xs.length ≤ w)
    (hw : 0 < w) (hu : w < c.usize) :
    ((fillDown d (w - 1) xs).toList.drop (((w - 1 + c.usize - xs.length) % c.usize + 1) % c.usize)).reverse
      = xs := by
  have e : ((w - 1 + c.usize - xs.length) % c.usize + 1) % c.usize = w - xs.length := by
    rw [Nat.mod_add_mod, show w - 1 + c.usize - xs.length + 1 = w - xs.length + c.usize by omega,
      Nat.add_mod_right, Nat.mod_eq_of_lt (by omega)]
  rw [e]
  apply List.ext_getElem
  · simp; omega
  · intro i h1 h2
    simp only [List.length_reverse, List.length_drop, Vector.length_toList] at h1
    simp only [List.getElem_reverse, List.getElem_drop, Vector.getElem_toList, fillDown,
      Vector.getElem_ofFn, List.length_drop, Vector.length_toList]
    rw [dif_pos (by omega)]
    congr 1; omega

/-- One call which returns: the scalars taken from the wrapped iterator are the
scalars which it hands out. -/
theorem any_step_ok (c : Cfg) {P : ρ → Prop} (hs : SafeScalars c P) (a a' : AnyAdapter ρ α w)
    (hP : P a.iter) (hw : 0 < w)
    (hu : w < c.usize) (hp : a.position < c.usize) (op : StreamOp) (o : StreamOut α w)
    (h : op.step c a = ok (o, a')) :
    Took a.iter (o.adapterDelivered c) a'.iter ∧ a'.default = a.default ∧ a'.position < c.usize ∧
      P a'.iter := by
  have uadd_lt : ∀ x y z, uadd c x y = ok z → z < c.usize := by
    intro x y z hz
    simp only [uadd] at hz
    split at hz
    · cases hz; assumption
    · cases hd : c.debug <;> simp [hd] at hz
      rw [← hz]; exact Nat.mod_lt _ (by omega)
  cases op with
  | next =>
    simp only [StreamOp.step, C134_next] at h
    cases h2 : uadd c a.position w with
    | ok e =>
      rw [h2] at h
      simp only [ok_bind] at h
      cases h3 : (ScalarIter.len a.iter : Res Nat) with
      | ok L =>
        rw [h3] at h
        simp only [ok_bind] at h
        split at h
        · cases h4 : (pull w a.iter : Res (List α × Bool × ρ)) with
          | ok q =>
            obtain ⟨xs, b, s'⟩ := q
            rw [h4] at h
            cases b
            · simp only [ok_bind, Bool.false_eq_true, if_false, ok.injEq, Prod.mk.injEq] at h
              obtain ⟨rfl, rfl⟩ := h
              refine ⟨?_, rfl, uadd_lt _ _ _ h2, pull_closed hs _ _ _ _ _ hP h4⟩
              simp only [StreamOut.adapterDelivered]
              rw [fillFrom_toList _ _ (by simpa using pull_length w _ _ _ _ h4)]
              exact pull_took _ _ _ _ _ h4
            · simp at h
          | _ => rw [h4] at h; simp at h
        · simp only [ok_bind, ok.injEq, Prod.mk.injEq] at h
          obtain ⟨rfl, rfl⟩ := h
          exact ⟨.refl _, rfl, hp, hP⟩
      | _ => rw [h3] at h; simp at h
    | _ => rw [h2] at h; simp at h
  | end_ =>
    have he : (end_ c a : Res (Option (Vector α w × Nat) × AnyAdapter ρ α w)) = _ :=
      C134_end c a (w + 1) hw hu hp
        (fun xs s' L h6 => hs.usize s' L (pull_closed hs _ _ _ _ _ hP h6)) (Nat.le_refl _)
    simp only [StreamOp.step, he] at h
    cases h3 : (ScalarIter.len a.iter : Res Nat) with
    | ok L =>
      rw [h3] at h
      simp only [ok_bind] at h
      split at h
      · cases h4 : (pull (if c.debug then w else w + 1) a.iter : Res (List α × Bool × ρ)) with
        | ok q =>
          obtain ⟨xs, b, s'⟩ := q
          rw [h4] at h
          have hx := pull_length _ _ _ _ _ h4
          cases b
          · simp only [ok_bind, Bool.false_eq_true, if_false, badAccess] at h
            cases hd : c.debug <;> simp [hd] at h
          · simp only [ok_bind, if_true] at h
            cases h5 : (ScalarIter.len s' : Res Nat) with
            | ok L' =>
              rw [h5] at h
              simp only [ok_bind] at h
              split at h
              · simp at h
              · simp only [ok_bind, ok.injEq, Prod.mk.injEq] at h
                obtain ⟨rfl, rfl⟩ := h
                refine ⟨?_, rfl, hs.usize _ _ (pull_closed hs _ _ _ _ _ hP h4) h5,
                  pull_closed hs _ _ _ _ _ hP h4⟩
                simp only [StreamOut.adapterDelivered]
                rw [fillDown_delivered c _ _ (by
                  simp only [if_true] at hx
                  split at hx <;> omega) hw hu]
                exact pull_took _ _ _ _ _ h4
            | _ => rw [h5] at h; simp at h
        | _ => rw [h4] at h; simp at h
      · simp only [ok_bind, ok.injEq, Prod.mk.injEq] at h
        obtain ⟨rfl, rfl⟩ := h
        exact ⟨.refl _, rfl, hp, hP⟩
    | _ => rw [h3] at h; simp at h
  | advance k =>
    simp only [StreamOp.step, SIMDIterable.advance, AnyAdapter.advance] at h
    cases hk : uadd c a.position k <;> simp [hk] at h
    obtain ⟨rfl, rfl⟩ := h
    exact ⟨.refl _, rfl, uadd_lt _ _ _ hk, hP⟩
  | scalarPos =>
    simp only [StreamOp.step, SIMDIterable.scalarPos, ok_bind, ok.injEq, Prod.mk.injEq] at h
    obtain ⟨rfl, rfl⟩ := h
    exact ⟨.refl _, rfl, hp, hP⟩
  | len =>
    simp only [StreamOp.step, SIMDIterable.len] at h
    cases h3 : (ScalarIter.len a.iter : Res Nat) with
    | ok L =>
      rw [h3] at h
      cases hk : udiv L w <;> simp [hk] at h
      obtain ⟨rfl, rfl⟩ := h
      exact ⟨.refl _, rfl, hp, hP⟩
    | _ => rw [h3] at h; simp at h

/-- **C134**, what holds of every sequence of calls which returns, around any
scalar iterator: the scalars taken from it are the scalars handed out, in
order. Missing: `end` may write out of bounds in release builds
(`C134_step_ub`, `C134_false`). -/
theorem C134_trace_partial (c : Cfg) {P : ρ → Prop} (hs : SafeScalars c P) (hw : 0 < w) (hu : w < c.usize) :
    ∀ (ops : List StreamOp) (a a' : AnyAdapter ρ α w) (os : List (StreamOut α w)),
    P a.iter → a.position < c.usize → runStream c a ops = ok (os, a') →
    Took a.iter (os.flatMap (·.adapterDelivered c)) a'.iter ∧ a'.default = a.default := by
  intro ops
  induction ops with
  | nil =>
    intro a a' os _ _ h
    simp only [runStream, ok.injEq, Prod.mk.injEq] at h
    obtain ⟨rfl, rfl⟩ := h
    exact ⟨.refl _, rfl⟩
  | cons op ops ih =>
    intro a a' os hP hp h
    simp only [runStream] at h
    cases h1 : (op.step c a : Res (StreamOut α w × AnyAdapter ρ α w)) with
    | ok r =>
      obtain ⟨o, b⟩ := r
      rw [h1, ok_bind] at h
      simp only at h
      obtain ⟨e1, e2, e3, e6⟩ := any_step_ok c hs a b hP hw hu hp op o h1
      cases h2 : (runStream c b ops : Res (List (StreamOut α w) × AnyAdapter ρ α w)) with
      | ok r =>
        obtain ⟨os', b'⟩ := r
        rw [h2, ok_bind] at h
        simp only [ok.injEq, Prod.mk.injEq] at h
        obtain ⟨rfl, rfl⟩ := h
        obtain ⟨e4, e5⟩ := ih b b' os' e6 e3 h2
        exact ⟨by rw [List.flatMap_cons]; exact e1.trans e4, e5.trans e2⟩
      | _ => rw [h2] at h; cases h
    | _ => rw [h1] at h; cases h

/-- Debug builds: no sequence of calls reads or writes out of bounds, whatever
the wrapped iterator answers. -/
theorem C134_debug_safe (c : Cfg) {P : ρ → Prop} (hs : SafeScalars c P) (hw : 0 < w) (hu : w < c.usize)
    (hd : c.debug = true) :
    ∀ (ops : List StreamOp) (a : AnyAdapter ρ α w), P a.iter → a.position < c.usize →
    (runStream c a ops : Res (List (StreamOut α w) × AnyAdapter ρ α w)) ≠ ub := by
  intro ops
  induction ops with
  | nil => intro a _ _ h; cases h
  | cons op ops ih =>
    intro a hP hp h
    simp only [runStream] at h
    cases h1 : (op.step c a : Res (StreamOut α w × AnyAdapter ρ α w)) with
    | ok r =>
      obtain ⟨o, b⟩ := r
      rw [h1, ok_bind] at h
      simp only at h
      obtain ⟨-, -, e3, e6⟩ := any_step_ok c hs a b hP hw hu hp op o h1
      refine ih b e6 e3 ?_
      cases h2 : (runStream c b ops : Res (List (StreamOut α w) × AnyAdapter ρ α w)) with
      | ub => rfl
      | _ => rw [h2] at h; cases h
    | ub =>
      have := ((C134_step_ub c hs a hP hw hu hp op).1 h1).2.1
      rw [hd] at this
      cases this
    | _ => rw [h1] at h; cases h

end C134

/-! ### The adapter around a well-behaved iterator -/

section Model
variable {α : Type} {w : Nat}

/-- The adapter of `Verif/Iters.lean` as the adapter around the scalar iterator
of a list. -/
def SIMDAdapter.toAny (a : SIMDAdapter α w) : AnyAdapter (List α) α w :=
  ⟨a.iter, a.scratch, a.default, a.position⟩

theorem toAny_nextLoop (c : Cfg) : ∀ (n o : Nat) (a : SIMDAdapter α w),
    AnyAdapter.nextLoop c n o a.toAny =
      (SIMDAdapter.nextLoop c n o a >>= fun a => ok a.toAny) := by
  intro n
  induction n with
  | zero => intro o a; rfl
  | succ n ih =>
    intro o a
    obtain ⟨l, s, d, p⟩ := a
    cases l with
    | nil => rfl
    | cons x l =>
      simp only [AnyAdapter.nextLoop, SIMDAdapter.nextLoop, SIMDAdapter.toAny, ScalarIter.next, ok_bind]
      cases (Packed.replaceUnchecked c s o x) with
      | ok t => exact ih (o + 1) ⟨l, t, d, p⟩
      | _ => rfl

theorem toAny_endLoop (c : Cfg) : ∀ (l : List α) (o fuel : Nat) (s : Vector α w),
    l.length < fuel →
    AnyAdapter.endLoop c fuel l o s =
      (SIMDAdapter.endLoop c l o s >>= fun q => ok (([] : List α), q.1, q.2)) := by
  intro l
  induction l with
  | nil =>
    intro o fuel s hf
    obtain ⟨fuel, rfl⟩ : ∃ k, fuel = k + 1 := ⟨fuel - 1, by simp at hf; omega⟩
    rfl
  | cons x l ih =>
    intro o fuel s hf
    simp only [List.length_cons] at hf
    obtain ⟨fuel, rfl⟩ : ∃ k, fuel = k + 1 := ⟨fuel - 1, by omega⟩
    simp only [AnyAdapter.endLoop, SIMDAdapter.endLoop, ScalarIter.next, ok_bind]
    cases (Packed.replaceUnchecked c s o x) with
    | ok t =>
      simp only [ok_bind]
      cases usub c o 1 with
      | ok o' => exact ih o' fuel t (by omega)
      | _ => rfl
    | _ => rfl

/-- A list stops at its end. -/
theorem pull_list (k : Nat) (l s' : List α) (xs : List α) (h : pull k l = ok (xs, true, s')) :
    s' = [] := by
  induction k generalizing l xs with
  | zero => simp [pull] at h
  | succ k ih =>
    simp only [pull] at h
    cases l with
    | nil =>
      simp only [ScalarIter.next, ok_bind, ok.injEq, Prod.mk.injEq] at h
      exact h.2.2.symm
    | cons x l =>
      simp only [ScalarIter.next, ok_bind] at h
      cases h2 : (pull k l : Res (List α × Bool × List α)) with
      | ok q =>
        obtain ⟨ys, e', s2⟩ := q
        rw [h2, ok_bind] at h
        simp only [ok.injEq, Prod.mk.injEq] at h
        obtain ⟨rfl, rfl, rfl⟩ := h
        exact ih l ys h2
      | _ => rw [h2] at h; cases h

theorem toAny_step (c : Cfg) (hw : 0 < w) (hu : w < c.usize) (op : StreamOp) (a : SIMDAdapter α w)
    (hp : a.position < c.usize) :
    (op.step c a.toAny : Res (StreamOut α w × AnyAdapter (List α) α w)) =
      (op.step c a >>= fun r => ok (r.1, r.2.toAny)) := by
  cases op with
  | next =>
    obtain ⟨l, s, d, p⟩ := a
    simp only [StreamOp.step, SIMDIterable.next, AnyAdapter.next, SIMDAdapter.next,
      SIMDSized.scalarLen]
    simp only [SIMDAdapter.toAny, ScalarIter.len]
    cases he : uadd c p w with
    | ok e =>
      simp only [ok_bind]
      split
      · have := toAny_nextLoop c w 0 (⟨l, s, d, p⟩ : SIMDAdapter α w)
        simp only [SIMDAdapter.toAny] at this
        rw [this]
        cases SIMDAdapter.nextLoop c w 0 (⟨l, s, d, p⟩ : SIMDAdapter α w) with
        | ok b =>
          simp only [ok_bind, AnyAdapter.advance, SIMDAdapter.advance]
          cases uadd c b.position w <;> rfl
        | _ => rfl
      · rfl
    | _ => rfl
  | end_ =>
    have h0 : (end_ c a.toAny : Res (Option (Vector α w × Nat) × AnyAdapter (List α) α w)) = _ :=
      (C134_end_stops c a.toAny (w + 1 + a.iter.length) hw hu hp (fun xs s' L h1 h2 => by
        rw [pull_list _ _ _ _ h1] at h2
        simp only [ScalarIter.len, List.length_nil, ok.injEq] at h2
        omega) (by omega)).symm
    simp only [StreamOp.step, h0]
    obtain ⟨l, s, d, p⟩ := a
    simp only [AnyAdapter.endFuel, SIMDIterator.end_, SIMDAdapter.end_, SIMDSized.scalarLen]
    simp only [SIMDAdapter.toAny, ScalarIter.len, ok_bind]
    by_cases hpl : p < l.length
    · simp only [hpl, if_true]
      cases usub c w 1 with
      | ok o =>
        simp only [ok_bind]
        rw [toAny_endLoop c l o _ d (by omega)]
        cases SIMDAdapter.endLoop c l o d with
        | ok q =>
          simp only [ok_bind, finalize, SIMDSized.scalarLen, ScalarIter.len, SIMDIterable.scalarPos,
            SIMDIterable.advance, AnyAdapter.advance, SIMDAdapter.advance, List.length_nil]
          cases usub c 0 p with
          | ok e =>
            simp only [ok_bind]
            cases uadd c p e <;> rfl
          | _ => rfl
        | _ => rfl
      | _ => rfl
    · simp only [hpl, if_false]
      rfl
  | advance k =>
    obtain ⟨l, s, d, p⟩ := a
    simp only [StreamOp.step, SIMDIterable.advance, AnyAdapter.advance, SIMDAdapter.advance,
      SIMDAdapter.toAny]
    cases uadd c p k <;> rfl
  | scalarPos => rfl
  | len =>
    obtain ⟨l, s, d, p⟩ := a
    simp only [StreamOp.step, SIMDIterable.len, SIMDAdapter.toAny, ScalarIter.len, ok_bind]
    cases udiv l.length w <;> rfl

/-- A call keeps the position a `usize`. -/
theorem adapter_step_pos (c : Cfg) (hu : w < c.usize) (op : StreamOp) (a a' : SIMDAdapter α w)
    (hw : 0 < w) (hp : a.position < c.usize) (hl : a.iter.length < c.usize) (o : StreamOut α w)
    (h : op.step c a = ok (o, a')) : a'.position < c.usize := by
  have h1 := toAny_step c hw hu op a hp
  rw [h, ok_bind] at h1
  exact (any_step_ok c (P := fun l : List α => l.length < c.usize)
    ⟨fun s _ => by cases s <;> simp [ScalarIter.next],
      fun s s' r hs h2 => by
        cases s with
        | nil =>
          simp only [ScalarIter.next, ok.injEq, Prod.mk.injEq] at h2
          rw [← h2.2]; exact hs
        | cons x l =>
          simp only [ScalarIter.next, ok.injEq, Prod.mk.injEq] at h2
          rw [← h2.2]
          simp only [List.length_cons] at hs
          show l.length < c.usize
          omega,
      fun s _ => by simp [ScalarIter.len],
      fun s L hs h2 => by simp only [ScalarIter.len, ok.injEq] at h2; omega⟩
    a.toAny a'.toAny hl hw hu hp op o h1).2.2.1

/-- The adapter of `Verif/Iters.lean` and the one around an arbitrary iterator
agree on every call of every sequence. -/
theorem C134_model (c : Cfg) (hw : 0 < w) (hu : w < c.usize) :
    ∀ (ops : List StreamOp) (a : SIMDAdapter α w), a.iter.length < c.usize → a.position < c.usize →
    (runStream c a.toAny ops : Res (List (StreamOut α w) × AnyAdapter (List α) α w)) =
      (runStream c a ops >>= fun r => ok (r.1, r.2.toAny)) := by
  intro ops
  induction ops with
  | nil => intro a _ _; rfl
  | cons op ops ih =>
    intro a hl hp
    simp only [runStream, toAny_step c hw hu op a hp]
    cases h1 : (op.step c a : Res (StreamOut α w × SIMDAdapter α w)) with
    | ok r =>
      obtain ⟨o, b⟩ := r
      simp only [ok_bind]
      obtain ⟨e1, -⟩ := adapter_step_ok c a b hw hu hl op o h1
      rw [ih b (by rw [← e1, List.length_append] at hl; omega)
        (adapter_step_pos c hu op a b hw hp hl o h1)]
      cases (runStream c b ops : Res (List (StreamOut α w) × SIMDAdapter α w)) <;> rfl
    | _ => rfl

end Model

/-! ### Iterators which lie -/

/-- A safe implementation of `ExactSizeIterator` over bytes: the scalars
`left, left-1, …, 1`, and a length which has nothing to do with them. -/
structure Liar where
  left : Nat
  says : Nat
deriving Repr, DecidableEq

instance : ScalarIter Liar (BitVec 8) where
  next s := match s.left with
    | 0 => ok (none, s)
    | n + 1 => ok (some (BitVec.ofNat 8 (n + 1)), ⟨n, s.says⟩)
  len s := ok s.says

theorem liar_safe : SafeScalars release64 (fun s : Liar => s.says < 2 ^ 64) where
  next s _ := by
    simp only [ScalarIter.next]
    split <;> simp
  closed s s' r hs h := by
    simp only [ScalarIter.next] at h
    split at h <;> simp at h <;> rw [← h.2] <;> exact hs
  len s _ := by simp [ScalarIter.len]
  usize s L hs h := by simp only [ScalarIter.len, ok.injEq] at h; subst h; exact hs

/-- A fresh adapter (src/into_iters.rs:134-141, commented out; the struct and
its fields are public). -/
def anyAdapter {ρ α : Type} {w : Nat} (s : ρ) (d : Vector α w) : AnyAdapter ρ α w := ⟨s, d, d, 0⟩

/-- **C134 is false**: an iterator which reports one scalar and has three makes
`end` write out of bounds, used as the consumers use it: `next` until `None`,
then `end`. -/
theorem C134_false : (runStream release64 (anyAdapter (⟨3, 1⟩ : Liar) (#v[0, 0] : Vector (BitVec 8) 2))
    [.next, .end_] : Res (List (StreamOut (BitVec 8) 2) × AnyAdapter Liar (BitVec 8) 2)) = ub := by
  decide +kernel

-- the same in a debug build
example : (runStream debug64 (anyAdapter (⟨3, 1⟩ : Liar) (#v[0, 0] : Vector (BitVec 8) 2))
    [.next, .end_] : Res (List (StreamOut (BitVec 8) 2) × AnyAdapter Liar (BitVec 8) 2)) = panic := by
  decide +kernel

-- an iterator which reports more scalars than it has: `next` panics
example : (runStream release64 (anyAdapter (⟨3, 4⟩ : Liar) (#v[0, 0] : Vector (BitVec 8) 2))
    [.next, .next] : Res (List (StreamOut (BitVec 8) 2) × AnyAdapter Liar (BitVec 8) 2)) = panic := by
  decide +kernel

-- an iterator which reports too few: the rest comes out of `end`
example : (runStream release64 (anyAdapter (⟨3, 3⟩ : Liar) (#v[0, 0] : Vector (BitVec 8) 2))
    [.next, .end_] : Res (List (StreamOut (BitVec 8) 2) × AnyAdapter Liar (BitVec 8) 2)) =
    ok ([.vec (some #v[3, 2]), .tail (some (#v[0, 1], 0))], ⟨⟨0, 3⟩, #v[0, 1], #v[0, 0], 3⟩) := by
  decide +kernel

example : (runStream release64 (anyAdapter (⟨3, 1⟩ : Liar) (#v[0, 0] : Vector (BitVec 8) 2))
    [.end_] : Res (List (StreamOut (BitVec 8) 2) × AnyAdapter Liar (BitVec 8) 2)) = ub := by
  have := (C134_step_ub release64 liar_safe (anyAdapter (⟨3, 1⟩ : Liar) (#v[0, 0] : Vector (BitVec 8) 2))
    (by decide) (by decide) (by decide) (by decide) .end_).2
    ⟨rfl, rfl, ⟨1, rfl, by decide⟩, [3, 2, 1], ⟨0, 1⟩, rfl⟩
  simp only [runStream, this]
  rfl

end Faster
