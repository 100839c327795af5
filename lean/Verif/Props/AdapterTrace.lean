import Verif.Props.Adapter
import Verif.Props.Trace
/-
C122: arbitrary sequences of calls of the safe methods of a `SIMDAdapter`.
-/
namespace Faster
open Res SIMDSized SIMDIterable SIMDIterator

section C122
variable {α : Type} {w : Nat}

/-- The loop of `next` runs out of scalars: `unwrap` panics. -/
theorem adapter_nextLoop_short (c : Cfg) (d : Vector α w) (p : Nat) :
    ∀ (n o : Nat) (l : List α) (s : Vector α w), o + n ≤ w → l.length < n →
    SIMDAdapter.nextLoop c n o ⟨l, s, d, p⟩ = panic := by
  intro n
  induction n with
  | zero => intro o l s _ h; omega
  | succ n ih =>
    intro o l s h hl
    cases l with
    | nil => rfl
    | cons x l =>
      simp only [SIMDAdapter.nextLoop]
      rw [replaceUnchecked_ok (by omega)]
      simp only [ok_bind]
      exact ih (o + 1) l _ (by omega) (by simpa using hl)

/-- The loop of `end` over exactly one vector of scalars: the counter
underflows after the last one. -/
theorem adapter_endLoop_full (c : Cfg) :
    ∀ (l : List α) (o : Nat) (s : Vector α w), l.length = o + 1 → o < w → w < c.usize →
    SIMDAdapter.endLoop c l o s = if c.debug then panic else ok (Vector.ofFn fun j =>
      if h : j.val ≤ o ∧ o - j.val < l.length then l[o - j.val] else s[j], c.usize - 1) := by
  intro l
  induction l with
  | nil => intro o s h1; simp at h1
  | cons x l ih =>
    intro o s h1 h2 h3
    simp only [List.length_cons] at h1
    simp only [SIMDAdapter.endLoop]
    rw [replaceUnchecked_ok h2]
    simp only [ok_bind]
    by_cases ho : 1 ≤ o
    · rw [usub_ok ho]
      simp only [ok_bind]
      rw [ih (o - 1) _ (by omega) (by omega) h3]
      cases c.debug
      · simp only [Bool.false_eq_true, if_false]
        refine congrArg ok (Prod.ext ?_ rfl)
        ext j hj
        simp only [Vector.getElem_ofFn, Fin.getElem_fin, Vector.getElem_set, List.length_cons]
        by_cases hjo : j = o
        · subst hjo
          rw [dif_neg (by omega), dif_pos (by omega)]
          simp
        · by_cases h4 : j ≤ o
          · rw [dif_pos (by omega), dif_pos (by omega), List.getElem_cons, dif_neg (by omega)]
            congr 1; omega
          · rw [dif_neg (by omega), dif_neg (by omega), if_neg (by omega)]
      · simp
    · have ho0 : o = 0 := by omega
      subst ho0
      have hl : l = [] := List.length_eq_zero_iff.1 (by omega)
      subst hl
      simp only [usub, show ¬ 1 ≤ 0 by omega, if_false]
      cases hd : c.debug
      · simp only [Bool.false_eq_true, if_false, ok_bind, SIMDAdapter.endLoop]
        refine congrArg ok (Prod.ext ?_ (Nat.mod_eq_of_lt (by omega)))
        ext j hj
        simp only [Vector.getElem_ofFn, Fin.getElem_fin, Vector.getElem_set, List.length_cons,
          List.length_nil]
        by_cases h4 : 0 = j
        · subst h4; simp
        · rw [if_neg h4, dif_neg (by omega)]
      · simp

/-- `next` in every state: a window of the scalars which are left where the
position plus the width, as a `usize`, is at most their number. A sum beyond
`usize` panics in debug builds; where it wraps around, fewer scalars than a
vector may be left, and `unwrap` panics. -/
theorem adapter_next_exact (c : Cfg) (d s : Vector α w) (p : Nat) (l : List α) :
    next c (⟨l, s, d, p⟩ : SIMDAdapter α w) =
      if c.debug ∧ c.usize ≤ p + w then panic
      else if (p + w) % c.usize ≤ l.length then
        if h : w ≤ l.length then
          ok (some (windowAt l 0 w (by omega)),
            ⟨l.drop w, windowAt l 0 w (by omega), d, (p + w) % c.usize⟩)
        else panic
      else ok (none, ⟨l, s, d, p⟩) := by
  simp only [SIMDIterable.next, SIMDAdapter.next, SIMDSized.scalarLen, ok_bind]
  have key : ∀ e, uadd c p w = ok e →
      (uadd c p w >>= fun e => if e ≤ l.length then
        SIMDAdapter.nextLoop c w 0 ⟨l, s, d, p⟩ >>= fun a =>
          SIMDAdapter.advance c a w >>= fun a => ok (some a.scratch, a)
        else ok (none, (⟨l, s, d, p⟩ : SIMDAdapter α w))) =
      if e ≤ l.length then
        if h : w ≤ l.length then
          ok (some (windowAt l 0 w (by omega)), ⟨l.drop w, windowAt l 0 w (by omega), d, e⟩)
        else panic
      else ok (none, ⟨l, s, d, p⟩) := by
    intro e he
    rw [he, ok_bind]
    by_cases h1 : e ≤ l.length
    · rw [if_pos h1, if_pos h1]
      by_cases h2 : w ≤ l.length
      · rw [dif_pos h2, adapter_nextLoop c d p w 0 l s (by omega) h2]
        simp only [ok_bind, SIMDAdapter.advance, he]
        have e : (Vector.ofFn fun (j : Fin w) => if h2 : j.val < 0 then s[j] else l[j.val - 0]) =
            windowAt l 0 w (by omega) := by
          ext j hj; simp [windowAt]
        rw [e]
      · rw [dif_neg h2, adapter_nextLoop_short c d p w 0 l s (by omega) (by omega)]
        rfl
    · rw [if_neg h1, if_neg h1]
  by_cases hu : p + w < c.usize
  · rw [if_neg (by omega), Nat.mod_eq_of_lt hu]
    exact key _ (uadd_ok hu)
  · cases hd : c.debug
    · simp only [Bool.false_eq_true, false_and, if_false]
      exact key _ (by simp [uadd, hu, hd])
    · rw [if_pos ⟨rfl, by omega⟩]
      simp [uadd, hu, hd]

/-- What `end` hands out of a rest of at most one vector: the scalars backwards
in the last lanes, the lanes of the default before. -/
def backwards (l : List α) (d : Vector α w) (_h : l.length ≤ w) : Vector α w :=
  Vector.ofFn fun j => if h : w - 1 - j.val < l.length then l[w - 1 - j.val] else d[j]

/-- `end` in every state. -/
theorem adapter_end_exact (c : Cfg) (d s : Vector α w) (p : Nat) (l : List α) (hw : 0 < w)
    (hu : w < c.usize) (hl : l.length < c.usize) :
    end_ c (⟨l, s, d, p⟩ : SIMDAdapter α w) =
      if l.length ≤ p then ok (none, ⟨l, s, d, p⟩)
      else if h : l.length ≤ w then
        if c.debug ∧ (0 < p ∨ l.length = w) then panic
        else ok (some (backwards l d h, (w - 1 + (c.usize - l.length)) % c.usize),
          ⟨[], backwards l d h, d, 0⟩)
      else if c.debug then panic else ub := by
  simp only [SIMDIterator.end_, SIMDAdapter.end_, SIMDSized.scalarLen, ok_bind]
  by_cases hp : l.length ≤ p
  · rw [if_pos hp, if_neg (by omega)]
  rw [if_neg hp, if_pos (by omega), usub_ok (by omega), ok_bind]
  -- the call of `finalize` on the emptied iterator
  have fin : ∀ t : Vector α w, (finalize c (⟨[], t, d, p⟩ : SIMDAdapter α w)) =
      if c.debug ∧ 0 < p then panic else ok ⟨[], t, d, 0⟩ := by
    intro t
    simp only [finalize, SIMDSized.scalarLen, SIMDIterable.scalarPos, SIMDIterable.advance,
      SIMDAdapter.advance, List.length_nil, ok_bind]
    by_cases h0 : 0 < p
    · cases hd : c.debug
      · have e1 : usub c 0 p = ok (c.usize - p) := by
          simp only [usub, show ¬ p ≤ 0 by omega, if_false, hd, Bool.false_eq_true]
          rw [Nat.add_zero, Nat.mod_eq_of_lt (by omega)]
        have e2 : uadd c p (c.usize - p) = ok 0 := by
          simp only [uadd, hd, Bool.false_eq_true, if_false]
          rw [if_neg (by omega), show p + (c.usize - p) = c.usize by omega, Nat.mod_self]
        rw [e1, ok_bind, e2]
        simp [h0]
      · have e1 : usub c 0 p = Res.panic := by
          simp only [usub, show ¬ p ≤ 0 by omega, if_false, hd, if_true]
        rw [e1, if_pos ⟨rfl, h0⟩]
        rfl
    · have : p = 0 := by omega
      subst this
      rw [usub_ok (Nat.le_refl _), ok_bind, uadd_ok (by omega)]
      simp
  by_cases h : l.length ≤ w
  · rw [dif_pos h]
    by_cases hf : l.length = w
    · rw [adapter_endLoop_full c l (w - 1) d (by omega) (by omega) hu]
      cases hd : c.debug
      · simp only [Bool.false_eq_true, if_false, ok_bind, false_and, fin, hd]
        rw [show w - 1 + (c.usize - l.length) = c.usize - 1 by omega, Nat.mod_eq_of_lt (by omega)]
        have e : (Vector.ofFn fun (j : Fin w) =>
            if h : j.val ≤ w - 1 ∧ w - 1 - j.val < l.length then l[w - 1 - j.val] else d[j]) =
            backwards l d h := by
          ext j hj
          simp only [Vector.getElem_ofFn, backwards]
          rw [dif_pos (by omega), dif_pos (by omega)]
        rw [e]
      · simp [hf]
    · rw [adapter_endLoop_ok c l (w - 1) d (by omega) (by omega)]
      simp only [ok_bind, fin]
      have e : (Vector.ofFn fun (j : Fin w) =>
          if h : w - 1 - l.length < j.val ∧ j.val ≤ w - 1 then l[w - 1 - j.val] else d[j]) =
          backwards l d h := by
        ext j hj
        simp only [Vector.getElem_ofFn, backwards]
        by_cases h3 : w - 1 - l.length < j
        · rw [dif_pos (by omega), dif_pos (by omega)]
        · rw [dif_neg (by omega), dif_neg (by omega)]
      have e2 : (w - 1 + (c.usize - l.length)) % c.usize = w - 1 - l.length := by
        rw [show w - 1 + (c.usize - l.length) = w - 1 - l.length + c.usize by omega,
          Nat.add_mod_right, Nat.mod_eq_of_lt (by omega)]
      rw [e, e2]
      by_cases h4 : c.debug ∧ 0 < p
      · rw [if_pos h4, if_pos ⟨h4.1, .inl h4.2⟩]; rfl
      · rw [if_neg h4, if_neg (fun h5 => h5.2.elim (fun h6 => h4 ⟨h5.1, h6⟩) hf)]
        rfl
  · rw [dif_neg h, adapter_endLoop_bad c l (w - 1) d (by omega) (by omega) hu]
    cases c.debug <;> rfl

/-- The scalars which a call of an adapter handed out, in order: the lanes of a
vector of `next`; the last lanes of a vector of `end` backwards, one fewer than
the lane count which `end` reports claims. -/
def StreamOut.adapterDelivered (c : Cfg) : StreamOut α w → List α
  | .vec (some v) => v.toList
  | .tail (some (v, n)) => (v.toList.drop ((n + 1) % c.usize)).reverse
  | _ => []

theorem backwards_delivered (c : Cfg) (l : List α) (d : Vector α w) (h : l.length ≤ w)
    (hw : 0 < w) (hu : w < c.usize) (h0 : 0 < l.length) :
    ((backwards l d h).toList.drop (((w - 1 + (c.usize - l.length)) % c.usize + 1) % c.usize)).reverse
      = l := by
  have e : ((w - 1 + (c.usize - l.length)) % c.usize + 1) % c.usize = w - l.length := by
    rw [Nat.mod_add_mod, show w - 1 + (c.usize - l.length) + 1 = w - l.length + c.usize by omega,
      Nat.add_mod_right, Nat.mod_eq_of_lt (by omega)]
  rw [e]
  apply List.ext_getElem
  · simp; omega
  · intro i h1 h2
    simp only [List.length_reverse, List.length_drop, Vector.length_toList] at h1
    simp only [List.getElem_reverse, List.getElem_drop, Vector.getElem_toList, backwards,
      Vector.getElem_ofFn, List.length_drop, Vector.length_toList]
    rw [dif_pos (by omega)]
    congr 1; omega

/-- One call which returns. -/
theorem adapter_step_ok (c : Cfg) (a a' : SIMDAdapter α w) (hw : 0 < w) (hu : w < c.usize)
    (hl : a.iter.length < c.usize) (op : StreamOp) (o : StreamOut α w)
    (h : op.step c a = ok (o, a')) :
    o.adapterDelivered c ++ a'.iter = a.iter ∧ a'.default = a.default := by
  obtain ⟨l, s, d, p⟩ := a
  cases op with
  | next =>
    simp only [StreamOp.step, adapter_next_exact] at h
    split at h
    · cases h
    split at h
    · split at h
      · rename_i hw2
        simp only [ok_bind, ok.injEq, Prod.mk.injEq] at h
        rw [← h.1, ← h.2]
        refine ⟨?_, rfl⟩
        apply List.ext_getElem
        · simp [StreamOut.adapterDelivered]; omega
        · intro i h1 h2
          simp only [StreamOut.adapterDelivered]
          rw [List.getElem_append]
          split
          · simp [windowAt]
          · rename_i h3
            rw [Vector.length_toList] at h3
            rw [List.getElem_drop]
            congr 1
            rw [Vector.length_toList]; omega
      · cases h
    · simp only [ok_bind, ok.injEq, Prod.mk.injEq] at h
      rw [← h.1, ← h.2]
      exact ⟨rfl, rfl⟩
  | end_ =>
    simp only [StreamOp.step] at h
    rw [adapter_end_exact c d s p l hw hu hl] at h
    split at h
    · simp only [ok_bind, ok.injEq, Prod.mk.injEq] at h
      rw [← h.1, ← h.2]
      exact ⟨rfl, rfl⟩
    · split at h
      · split at h
        · cases h
        · simp only [ok_bind, ok.injEq, Prod.mk.injEq] at h
          rw [← h.1, ← h.2]
          refine ⟨?_, rfl⟩
          simp only [StreamOut.adapterDelivered, List.append_nil]
          exact backwards_delivered c l d _ hw hu (by omega)
      · cases hd : c.debug <;> simp [hd] at h
  | advance k =>
    simp only [StreamOp.step, SIMDIterable.advance, SIMDAdapter.advance] at h
    cases hk : uadd c p k <;> simp [hk] at h
    rw [← h.1, ← h.2]
    exact ⟨rfl, rfl⟩
  | scalarPos =>
    simp only [StreamOp.step, SIMDIterable.scalarPos, ok_bind, ok.injEq, Prod.mk.injEq] at h
    rw [← h.1, ← h.2]
    exact ⟨rfl, rfl⟩
  | len =>
    simp only [StreamOp.step, SIMDIterable.len] at h
    cases hk : udiv l.length w <;> simp [hk] at h
    rw [← h.1, ← h.2]
    exact ⟨rfl, rfl⟩

/-- One call reads or writes out of bounds exactly where `end` is called in a
release build with more than one vector of scalars left and the position
below their number. -/
theorem adapter_step_ub (c : Cfg) (a : SIMDAdapter α w) (hw : 0 < w) (hu : w < c.usize)
    (hl : a.iter.length < c.usize) (op : StreamOp) :
    (op.step c a : Res (StreamOut α w × SIMDAdapter α w)) = ub ↔
      op = .end_ ∧ c.debug = false ∧ w < a.iter.length ∧ a.position < a.iter.length := by
  obtain ⟨l, s, d, p⟩ := a
  cases op with
  | next =>
    simp only [StreamOp.step, adapter_next_exact, reduceCtorEq, false_and, iff_false]
    split
    · simp
    split
    · split <;> simp
    · simp
  | end_ =>
    simp only [StreamOp.step, true_and]
    rw [adapter_end_exact c d s p l hw hu hl]
    split
    · simp; omega
    · split
      · split <;> simp <;> omega
      · cases hd : c.debug <;> simp <;> omega
  | advance k =>
    simp only [StreamOp.step, SIMDIterable.advance, SIMDAdapter.advance, reduceCtorEq, false_and,
      iff_false, uadd]
    split
    · simp
    · cases c.debug <;> simp
  | scalarPos => simp [StreamOp.step, SIMDIterable.scalarPos]
  | len =>
    simp [StreamOp.step, SIMDIterable.len, udiv, show w ≠ 0 by omega]

/-- **C122**, what holds of every sequence of calls which returns: the scalars
handed out by the calls, in order, and the scalars which are left are the
scalars of the wrapped iterator; nothing is lost or handed out twice. Missing:
sequences of calls may write out of bounds (`C122_exact`), and the rest is
handed out backwards with the wrong lane count. -/
theorem C122_adapter_trace_partial (c : Cfg) (hw : 0 < w) (hu : w < c.usize) :
    ∀ (ops : List StreamOp) (a a' : SIMDAdapter α w) (os : List (StreamOut α w)),
    a.iter.length < c.usize → runStream c a ops = ok (os, a') →
    os.flatMap (·.adapterDelivered c) ++ a'.iter = a.iter ∧ a'.default = a.default := by
  intro ops
  induction ops with
  | nil =>
    intro a a' os _ h
    simp only [runStream, ok.injEq, Prod.mk.injEq] at h
    rw [← h.1, ← h.2]
    exact ⟨rfl, rfl⟩
  | cons op ops ih =>
    intro a a' os hl h
    simp only [runStream] at h
    cases h1 : (op.step c a : Res (StreamOut α w × SIMDAdapter α w)) with
    | ok r =>
      obtain ⟨o, b⟩ := r
      rw [h1, ok_bind] at h
      simp only at h
      obtain ⟨e1, e2⟩ := adapter_step_ok c a b hw hu hl op o h1
      cases h2 : (runStream c b ops : Res (List (StreamOut α w) × SIMDAdapter α w)) with
      | ok r =>
        obtain ⟨os', b'⟩ := r
        rw [h2, ok_bind] at h
        simp only [ok.injEq, Prod.mk.injEq] at h
        obtain ⟨e3, e4⟩ := ih b b' os' (by
          rw [← e1, List.length_append] at hl; omega) h2
        rw [← h.1, ← h.2]
        refine ⟨?_, e4.trans e2⟩
        rw [List.flatMap_cons, List.append_assoc, e3, e1]
      | _ => rw [h2] at h; cases h
    | _ => rw [h1] at h; cases h

/-- Exactly when the safe methods of a fresh adapter can be called in an order
which writes out of bounds: release builds, more scalars than one vector. One
call of `end` does. -/
theorem C122_exact (c : Cfg) (hw : 0 < w) (hu : w < c.usize) (l : List α) (d : Vector α w)
    (hl : l.length < c.usize) :
    (∃ ops, (runStream c (simdAdapter l d) ops :
      Res (List (StreamOut α w) × SIMDAdapter α w)) = ub) ↔ c.debug = false ∧ w < l.length := by
  constructor
  · rintro ⟨ops, h⟩
    have key : ∀ (ops : List StreamOp) (a : SIMDAdapter α w), a.iter.length ≤ l.length →
        (runStream c a ops : Res (List (StreamOut α w) × SIMDAdapter α w)) = ub →
        c.debug = false ∧ w < l.length := by
      intro ops
      induction ops with
      | nil => intro a _ h; cases h
      | cons op ops ih =>
        intro a ha h
        simp only [runStream] at h
        cases h1 : (op.step c a : Res (StreamOut α w × SIMDAdapter α w)) with
        | ok r =>
          obtain ⟨o, b⟩ := r
          rw [h1, ok_bind] at h
          simp only at h
          obtain ⟨e1, -⟩ := adapter_step_ok c a b hw hu (by omega) op o h1
          refine ih b (by rw [← e1, List.length_append] at ha; omega) ?_
          cases h2 : (runStream c b ops : Res (List (StreamOut α w) × SIMDAdapter α w)) with
          | ub => rfl
          | _ => rw [h2] at h; cases h
        | ub =>
          have := (adapter_step_ub c a hw hu (by omega) op).1 h1
          exact ⟨this.2.1, by omega⟩
        | _ => rw [h1] at h; cases h
    exact key ops _ (Nat.le_refl _) h
  · rintro ⟨hd, h⟩
    refine ⟨[.end_], ?_⟩
    have := (adapter_step_ub c (simdAdapter l d) hw hu hl .end_).2
      ⟨rfl, hd, h, by simp only [simdAdapter]; omega⟩
    simp only [runStream, this]
    rfl

/-- Debug builds: no sequence of calls on an adapter in any state reads or
writes out of bounds. -/
theorem C122_debug_safe (c : Cfg) (hw : 0 < w) (hu : w < c.usize) (hd : c.debug = true) :
    ∀ (ops : List StreamOp) (a : SIMDAdapter α w), a.iter.length < c.usize →
    (runStream c a ops : Res (List (StreamOut α w) × SIMDAdapter α w)) ≠ ub := by
  intro ops
  induction ops with
  | nil => intro a _ h; cases h
  | cons op ops ih =>
    intro a ha h
    simp only [runStream] at h
    cases h1 : (op.step c a : Res (StreamOut α w × SIMDAdapter α w)) with
    | ok r =>
      obtain ⟨o, b⟩ := r
      rw [h1, ok_bind] at h
      simp only at h
      obtain ⟨e1, -⟩ := adapter_step_ok c a b hw hu ha op o h1
      refine ih b (by rw [← e1, List.length_append] at ha; omega) ?_
      cases h2 : (runStream c b ops : Res (List (StreamOut α w) × SIMDAdapter α w)) with
      | ub => rfl
      | _ => rw [h2] at h; cases h
    | ub =>
      have := ((adapter_step_ub c a hw hu ha op).1 h1).2.1
      rw [hd] at this
      cases this
    | _ => rw [h1] at h; cases h

/-- **C122 is false**: one call of the safe method `end` on a fresh adapter
around three scalars, packed in vectors of two, writes out of bounds. -/
theorem C122_false : (runStream release64 (simdAdapter [1#8, 2, 3] #v[0, 0]) [.end_] :
    Res (List (StreamOut (BitVec 8) 2) × SIMDAdapter (BitVec 8) 2)) = ub := by decide +kernel

example : runStream release64 (simdAdapter [1#8, 2, 3, 4, 5] #v[0, 0, 0, 0])
    [.len, .next, .scalarPos, .end_] =
    ok ([.num 1, .vec (some #v[1, 2, 3, 4]), .num 4, .tail none],
      ⟨[5], #v[1, 2, 3, 4], #v[0, 0, 0, 0], 4⟩) := by decide +kernel

example : (∃ ops, (runStream release64 (simdAdapter [1#8, 2, 3] #v[0, 0]) ops :
    Res (List (StreamOut (BitVec 8) 2) × SIMDAdapter (BitVec 8) 2)) = ub) :=
  (C122_exact release64 (by decide) (by decide) _ _ (by decide)).2 (by decide)

-- a position past the last representable one: `unwrap` panics in a release build
example : next release64 (⟨[1#8], #v[0, 0], #v[0, 0], 2 ^ 64 - 2⟩ : SIMDAdapter (BitVec 8) 2) = panic := by
  decide +kernel

-- a full vector at position 1 is returned backwards with the lane count `usize::MAX`
example : end_ release64 (⟨[1#8, 2], #v[0, 0], #v[0, 0], 1⟩ : SIMDAdapter (BitVec 8) 2) =
    ok (some (#v[2, 1], 2 ^ 64 - 1), ⟨[], #v[2, 1], #v[0, 0], 0⟩) := by decide +kernel

end C122

end Faster
