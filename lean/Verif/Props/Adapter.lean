import Verif.Props.Position
/-
C30: `SIMDAdapter`, packing a scalar iterator.
-/
namespace Faster
open Res SIMDSized SIMDIterable SIMDIterator

/-- A fresh adapter around an iterator producing `l` (src/into_iters.rs builds it
with position 0 and the default vector as scratch). -/
def simdAdapter {α : Type} {w : Nat} (l : List α) (d : Vector α w) : SIMDAdapter α w :=
  { iter := l, scratch := d, default := d, position := 0 }

theorem adapter_nextLoop {α : Type} {w : Nat} (c : Cfg) (d : Vector α w) (p : Nat) :
    ∀ (n o : Nat) (l : List α) (s : Vector α w) (h : o + n = w) (hl : n ≤ l.length),
    SIMDAdapter.nextLoop c n o ⟨l, s, d, p⟩ =
      ok ⟨l.drop n, Vector.ofFn fun j => if h2 : j.val < o then s[j] else l[j.val - o], d, p⟩ := by
  intro n
  induction n with
  | zero =>
    intro o l s h hl
    simp only [SIMDAdapter.nextLoop, List.drop_zero]
    congr 2
    ext j hj
    simp [show j < o by omega]
  | succ n ih =>
    intro o l s h hl
    cases l with
    | nil => simp at hl
    | cons x l =>
      simp only [SIMDAdapter.nextLoop]
      rw [replaceUnchecked_ok (by omega)]
      simp only [ok_bind]
      rw [ih (o + 1) l _ (by omega) (by simpa using hl)]
      congr 2
      ext j hj
      simp only [Vector.getElem_ofFn, Fin.getElem_fin, Vector.getElem_set]
      by_cases h1 : j < o
      · rw [dif_pos (by omega), if_neg (by omega), dif_pos h1]
      · by_cases h2 : j = o
        · subst h2
          simp
        · rw [dif_neg (by omega), dif_neg h1]
          rw [List.getElem_cons, dif_neg (by omega)]
          congr 1

/-- `next` of an adapter at position `p` with `l` left. -/
theorem adapter_next {α : Type} {w : Nat} (c : Cfg) (d s : Vector α w) (p : Nat) (l : List α)
    (hu : p + w < c.usize) :
    (∀ h : p + w ≤ l.length, next c (⟨l, s, d, p⟩ : SIMDAdapter α w) =
      ok (some (windowAt l 0 w (by omega)), ⟨l.drop w, windowAt l 0 w (by omega), d, p + w⟩)) ∧
    (l.length < p + w → next c (⟨l, s, d, p⟩ : SIMDAdapter α w) = ok (none, ⟨l, s, d, p⟩)) := by
  constructor
  · intro h
    simp only [SIMDIterable.next, SIMDAdapter.next, SIMDSized.scalarLen, ok_bind]
    rw [uadd_ok hu]
    simp only [ok_bind, h, if_true]
    rw [adapter_nextLoop c d p w 0 l s (by omega) (by omega)]
    simp only [ok_bind, SIMDAdapter.advance]
    rw [uadd_ok hu]
    simp only [ok_bind]
    have e : (Vector.ofFn fun (j : Fin w) => if h2 : j.val < 0 then s[j] else l[j.val - 0]) =
        windowAt l 0 w (by omega) := by
      ext j hj; simp [windowAt]
    rw [e]
  · intro h
    simp only [SIMDIterable.next, SIMDAdapter.next, SIMDSized.scalarLen, ok_bind]
    rw [uadd_ok hu]
    simp only [ok_bind]
    rw [if_neg (by omega)]

/-- All of `next`: from position `p` with `l` left the adapter delivers only
the first `((|l| - p) / w + 1) / 2` vectors. -/
theorem adapter_runs {α : Type} {w : Nat} (c : Cfg) (d : Vector α w) (hw : 0 < w) :
    ∀ (k : Nat) (l : List α) (s : Vector α w) (p : Nat), p + l.length + w < c.usize →
    k = (if p ≤ l.length then ((l.length - p) / w + 1) / 2 else 0) →
    ∃ s', Runs c (⟨l, s, d, p⟩ : SIMDAdapter α w) ((fullWindows w l).take k)
      (ok ⟨l.drop (k * w), s', d, p + k * w⟩) := by
  intro k
  induction k with
  | zero =>
    intro l s p hu hk
    refine ⟨s, ?_⟩
    have h : l.length < p + w := by
      split at hk
      · by_cases h2 : w ≤ l.length - p
        · have := Nat.div_pos h2 hw; omega
        · omega
      · omega
    simpa using Runs.done ((adapter_next c d s p l (by omega)).2 h)
  | succ k ih =>
    intro l s p hu hk
    have hp : p ≤ l.length := by
      split at hk
      · assumption
      · omega
    rw [if_pos hp] at hk
    have hq : 1 ≤ (l.length - p) / w := by omega
    have hge : w ≤ l.length - p := by
      rcases Nat.lt_or_ge (l.length - p) w with h | h
      · rw [Nat.div_eq_of_lt h] at hq; omega
      · exact h
    have hn := (adapter_next c d s p l (by omega)).1 (by omega)
    have hl : (l.drop w).length = l.length - w := by simp
    obtain ⟨s', hr⟩ := ih (l.drop w) (windowAt l 0 w (by omega)) (p + w) (by rw [hl]; omega) (by
      rw [hl]
      by_cases h2 : 2 * w ≤ l.length - p
      · rw [if_pos (by omega), show l.length - w - (p + w) = l.length - p - 2 * w by omega]
        have : (l.length - p) / w = (l.length - p - 2 * w) / w + 2 := by
          have := Nat.add_mul_div_right (l.length - p - 2 * w) 2 hw
          rw [show l.length - p - 2 * w + 2 * w = l.length - p by omega] at this
          exact this
        omega
      · have : (l.length - p) / w < 2 := Nat.div_lt_of_lt_mul (by omega)
        have hk0 : k = 0 := by omega
        split
        · have h4 : (l.length - w - (p + w)) / w = 0 := by
            rw [show l.length - w - (p + w) = 0 by omega]; simp
          rw [h4]; omega
        · exact hk0)
    refine ⟨s', ?_⟩
    rw [fullWindows_cons hw (by omega), List.take_succ_cons]
    have e1 : (k + 1) * w = w + k * w := by rw [Nat.succ_mul]; omega
    rw [List.drop_drop] at hr
    rw [e1, ← Nat.add_assoc p]
    exact Runs.step hn hr

/-- The element loop of `end` when at most `w` items are left: they are stored
backwards from lane `o`. -/
theorem adapter_endLoop_ok {α : Type} {w : Nat} (c : Cfg) :
    ∀ (l : List α) (o : Nat) (s : Vector α w), l.length ≤ o → o < w →
    SIMDAdapter.endLoop c l o s = ok (Vector.ofFn fun j =>
      if h : o - l.length < j.val ∧ j.val ≤ o then l[o - j.val] else s[j], o - l.length) := by
  intro l
  induction l with
  | nil =>
    intro o s h1 h2
    simp only [SIMDAdapter.endLoop, List.length_nil, Nat.sub_zero]
    congr 2
    ext j hj
    simp only [Vector.getElem_ofFn]
    rw [dif_neg (by omega)]; rfl
  | cons x l ih =>
    intro o s h1 h2
    simp only [List.length_cons] at h1
    simp only [SIMDAdapter.endLoop]
    rw [replaceUnchecked_ok h2]
    simp only [ok_bind]
    rw [usub_ok (by omega)]
    simp only [ok_bind]
    rw [ih (o - 1) _ (by omega) (by omega)]
    refine congrArg ok (Prod.ext ?_ (by simp; omega))
    ext j hj
    simp only [Vector.getElem_ofFn, Fin.getElem_fin, Vector.getElem_set, List.length_cons]
    by_cases hjo : j = o
    · subst hjo
      rw [dif_neg (by omega), dif_pos (by omega)]
      simp
    · by_cases h3 : o - (l.length + 1) < j ∧ j ≤ o
      · rw [dif_pos h3, dif_pos (by omega), List.getElem_cons, dif_neg (by omega)]
        congr 1; omega
      · rw [dif_neg h3, dif_neg (by omega), if_neg (by omega)]

/-- With more than `o + 1` items the index underflows: debug builds panic, release
builds write out of bounds. -/
theorem adapter_endLoop_bad {α : Type} {w : Nat} (c : Cfg) :
    ∀ (l : List α) (o : Nat) (s : Vector α w), o + 1 < l.length → o < w → w < c.usize →
    SIMDAdapter.endLoop c l o s = if c.debug then panic else ub := by
  intro l
  induction l with
  | nil => intro o s h1; simp at h1
  | cons x l ih =>
    intro o s h1 h2 h3
    simp only [List.length_cons] at h1
    simp only [SIMDAdapter.endLoop]
    rw [replaceUnchecked_ok h2]
    simp only [ok_bind]
    by_cases ho : 1 ≤ o
    · rw [usub_ok ho]
      simp only [ok_bind]
      exact ih (o - 1) _ (by omega) (by omega) h3
    · have ho0 : o = 0 := by omega
      subst ho0
      cases l with
      | nil => simp at h1
      | cons y l =>
        simp only [usub, show ¬ 1 ≤ 0 by omega, if_false]
        cases hd : c.debug
        · simp only [Bool.false_eq_true, if_false, ok_bind, SIMDAdapter.endLoop]
          rw [replaceUnchecked_bad]
          · simp [hd]
          · rw [Nat.mod_eq_of_lt (by omega)]; omega
        · simp

/-- Exact outcome of a pass over an adapter around `l`. -/
theorem C30_adapter_exact {α : Type} {w : Nat} (c : Cfg) (l : List α) (d : Vector α w)
    (hw : 0 < w) (hu : 2 * l.length + 2 * w < c.usize) :
    ∃ a', Runs c (simdAdapter l d) ((fullWindows w l).take ((l.length / w + 1) / 2)) (ok a') ∧
      -- nothing or exactly a multiple of two vectors, or an odd number: no partial vector
      (l.length / w % 2 = 1 ∨ l.length % w = 0 → end_ c a' = ok (none, a')) ∧
      -- an even, positive number of vectors and a rest: out of bounds
      (l.length / w % 2 = 0 ∧ l.length / w ≠ 0 ∧ l.length % w ≠ 0 →
        end_ c a' = if c.debug then panic else ub) ∧
      -- less than a vector: backwards, with one empty lane too few reported
      (0 < l.length ∧ l.length < w → ∃ a'', end_ c a' = ok (some (Vector.ofFn fun j =>
        if h : w - 1 - l.length < j.val then l[w - 1 - j.val] else d[j], w - 1 - l.length), a'')) := by
  obtain ⟨s', hr⟩ := adapter_runs c d hw _ l d 0 (by omega) rfl
  rw [if_pos (Nat.zero_le _), Nat.sub_zero] at hr
  have hd := Nat.div_add_mod l.length w
  have hm := Nat.mod_lt l.length hw
  rw [Nat.mul_comm] at hd
  refine ⟨_, hr, ?_, ?_, ?_⟩
  · intro h
    simp only [SIMDIterator.end_, SIMDAdapter.end_, SIMDSized.scalarLen, ok_bind, List.length_drop]
    rw [if_neg]
    have h1 : ((l.length / w + 1) / 2) * w + ((l.length / w + 1) / 2) * w ≥ l.length := by
      rw [← Nat.add_mul]
      rcases h with h | h
      · have : (l.length / w + 1) / 2 + (l.length / w + 1) / 2 = l.length / w + 1 := by omega
        rw [this, Nat.succ_mul]; omega
      · have : l.length / w ≤ (l.length / w + 1) / 2 + (l.length / w + 1) / 2 := by omega
        have := Nat.mul_le_mul_right w this
        omega
    omega
  · rintro ⟨h1, h2, h3⟩
    have e : (l.length / w + 1) / 2 + (l.length / w + 1) / 2 = l.length / w := by omega
    have e2 : ((l.length / w + 1) / 2) * w + ((l.length / w + 1) / 2) * w = l.length / w * w := by
      rw [← Nat.add_mul, e]
    have e3 : w ≤ ((l.length / w + 1) / 2) * w := Nat.le_mul_of_pos_left w (by
      have := Nat.pos_of_ne_zero h2; omega)
    simp only [SIMDIterator.end_, SIMDAdapter.end_, SIMDSized.scalarLen, ok_bind, List.length_drop]
    rw [if_pos (by omega), usub_ok (by omega)]
    simp only [ok_bind]
    rw [adapter_endLoop_bad c _ _ _ (by rw [List.length_drop]; omega) (by omega) (by omega)]
    cases c.debug <;> rfl
  · rintro ⟨h1, h2⟩
    have hq : l.length / w = 0 := Nat.div_eq_of_lt h2
    simp only [hq, Nat.zero_add, Nat.reduceDiv, Nat.zero_mul, List.drop_zero]
    simp only [SIMDIterator.end_, SIMDAdapter.end_, SIMDSized.scalarLen, ok_bind]
    rw [if_pos h1, usub_ok (by omega)]
    simp only [ok_bind]
    rw [adapter_endLoop_ok c l _ _ (by omega) (by omega)]
    simp only [ok_bind, finalize, SIMDSized.scalarLen, SIMDIterable.scalarPos, List.length_nil]
    rw [usub_ok (Nat.le_refl _)]
    simp only [ok_bind, SIMDIterable.advance, SIMDAdapter.advance]
    rw [uadd_ok (by omega)]
    simp only [ok_bind]
    refine ⟨_, congrArg ok (Prod.ext (congrArg some (Prod.ext ?_ rfl)) rfl)⟩
    ext j hj
    simp only [Vector.getElem_ofFn]
    by_cases h3 : w - 1 - l.length < j
    · rw [dif_pos (by omega), dif_pos h3]
    · rw [dif_neg (by omega), dif_neg h3]

/-- **C30 is false**: three scalars come out backwards, and a lane count of 0 is
reported instead of 1; nine scalars with two lanes write out of bounds. -/
theorem C30_false :
    (∃ a a' : SIMDAdapter (BitVec 8) 4, next release64 (simdAdapter [1, 2, 3] #v[0, 0, 0, 0]) = ok (none, a) ∧
      end_ release64 a = ok (some (#v[0, 3, 2, 1], 0), a')) ∧
    (∃ (vs : List (Vector (BitVec 8) 2)) (a : SIMDAdapter (BitVec 8) 2),
      Runs release64 (simdAdapter [1, 2, 3, 4, 5, 6, 7, 8, 9] #v[0, 0]) vs (ok a) ∧
      end_ release64 a = ub) := by
  refine ⟨⟨⟨[1, 2, 3], #v[0, 0, 0, 0], #v[0, 0, 0, 0], 0⟩, ⟨[], #v[0, 3, 2, 1], #v[0, 0, 0, 0], 0⟩,
    by decide +kernel, by decide +kernel⟩, ?_⟩
  obtain ⟨a', h1, -, h3, -⟩ := C30_adapter_exact release64 [1#8, 2, 3, 4, 5, 6, 7, 8, 9] #v[0, 0]
    (by decide) (by decide)
  exact ⟨_, a', h1, h3 (by decide)⟩

/-- **C30**, the part which holds: exactly one vector of scalars, or none.
Missing: every other number of scalars, for vectors of at least two lanes
(`C30_adapter_loses`). -/
theorem C30_adapter_one_vector_partial {α : Type} {w : Nat} (c : Cfg) (l : List α) (d : Vector α w)
    (hw : 0 < w) (hu : 2 * l.length + 2 * w < c.usize) (hl : l.length = 0 ∨ l.length = w) :
    ∃ a', Runs c (simdAdapter l d) (fullWindows w l) (ok a') ∧ end_ c a' = ok (none, a') ∧
      lanes (fullWindows w l) = l := by
  obtain ⟨a', h1, h2, -, -⟩ := C30_adapter_exact c l d hw hu
  have hmod : l.length % w = 0 := by rcases hl with h | h <;> rw [h] <;> simp
  refine ⟨a', ?_, h2 (Or.inr hmod), drop_eq_windows_leftover hw l hmod⟩
  have : (fullWindows w l).take ((l.length / w + 1) / 2) = fullWindows w l := by
    apply List.take_of_length_le
    rw [fullWindows_length]
    rcases hl with h | h <;> rw [h] <;> simp [Nat.div_self hw]
  rwa [this] at h1

/-- With any other number of scalars a pass over the adapter never delivers the
right number of filled lanes. -/
theorem C30_adapter_loses {α : Type} {w : Nat} (c : Cfg) (l : List α) (d : Vector α w)
    (hw : 0 < w) (hu : 2 * l.length + 2 * w < c.usize) (h0 : l.length ≠ 0) (h1 : l.length ≠ w) :
    ∃ vs a', Runs c (simdAdapter l d) vs (ok a') ∧
      ∀ t a'', end_ c a' = ok (t, a'') →
        vs.length * w + (t.map fun q => w - q.2).getD 0 ≠ l.length := by
  obtain ⟨a', h2, h3, h4, h5⟩ := C30_adapter_exact c l d hw hu
  refine ⟨_, a', h2, ?_⟩
  intro t a'' ht
  have hd := Nat.div_add_mod l.length w
  have hm := Nat.mod_lt l.length hw
  rw [Nat.mul_comm] at hd
  have hlen : ((fullWindows w l).take ((l.length / w + 1) / 2)).length = (l.length / w + 1) / 2 := by
    rw [List.length_take, fullWindows_length]
    by_cases hq : l.length / w = 0
    · rw [hq]; simp
    · have := Nat.pos_of_ne_zero hq
      omega
  rw [hlen]
  by_cases hlt : l.length < w
  · obtain ⟨a2, e⟩ := h5 ⟨by omega, hlt⟩
    rw [e] at ht
    simp only [ok.injEq, Prod.mk.injEq] at ht
    rw [← ht.1, Nat.div_eq_of_lt hlt]
    simp
    omega
  · by_cases hc : l.length / w % 2 = 1 ∨ l.length % w = 0
    · rw [h3 hc] at ht
      simp only [ok.injEq, Prod.mk.injEq] at ht
      rw [← ht.1]
      simp only [Option.map_none, Option.getD_none, Nat.add_zero]
      intro e
      have hq1 : l.length / w = (l.length / w + 1) / 2 := by
        have : l.length / w = ((l.length / w + 1) / 2) * w / w := by rw [e]
        rw [Nat.mul_div_cancel _ hw] at this
        exact this
      have hq2 : l.length / w ≤ 1 := by omega
      have hq3 : 0 < l.length / w := Nat.div_pos (by omega) hw
      have : l.length / w = 1 := by omega
      rw [this] at e
      simp at e
      omega
    · have hq3 : 0 < l.length / w := Nat.div_pos (by omega) hw
      have := h4 ⟨by omega, by omega, by omega⟩
      rw [this] at ht
      split at ht <;> cases ht

example : ∃ a', Runs debug64 (simdAdapter [1#8, 2] #v[0, 0]) [#v[1, 2]] (ok a') := by
  obtain ⟨a', h, -⟩ := C30_adapter_one_vector_partial debug64 [1#8, 2] #v[0, 0] (by decide) (by decide)
    (Or.inr rfl)
  exact ⟨a', h⟩

end Faster
