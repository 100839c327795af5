import Verif.Lemmas.Stream2
import Verif.Props.Collect
/-
Iterators which walk over a list in steps of one vector: slice iterators and
strided iterators. The states are indexed by the position.
-/
namespace Faster
open Res SIMDSized SIMDIterable SIMDIterator

/-- `S p` is the iterator at position `p` of the list `l`; `more p` says whether
`next` delivers a further vector there. -/
structure Driver {I α : Type} {w : Nat} [SIMDSized I] [SIMDIterator I α w] (c : Cfg)
    (S : Nat → I) (l : List α) (d : Vector α w) (more : Nat → Prop) : Prop where
  pos : ∀ p, p ≤ l.length → scalarPos c (S p) = ok p
  len : ∀ p, len c (S p) = ok (l.length / w)
  dflt : ∀ p, dflt (S p) = d
  next_some : ∀ p, more p → ∃ h : p + w ≤ l.length,
    next c (S p) = ok (some (windowAt l p w h), S (p + w))
  next_none : ∀ p, p ≤ l.length → ¬ more p → next c (S p) = ok (none, S p)
  few : ∀ p, ¬ more p → l.length ≤ p + w
  end_ : ∀ p, p ≤ l.length → ¬ more p → (p < l.length → p = 0 ∨ w < l.length) →
    end_ c (S p) = if p < l.length
      then ok (some (padFront d (l.drop p), w - (l.length - p)), S l.length)
      else ok (none, S p)

/-- The number of vectors which `next` delivers when `n` full groups are there:
all of them, or all but the last one when nothing is left over. -/
def Driver.count {α : Type} (w : Nat) (l : List α) (n : Nat) : Prop :=
  n = l.length / w ∨ (l.length % w = 0 ∧ n + 1 = l.length / w)

/-- The outcome of `end` after `n` full vectors. -/
def tailFrom {α : Type} {w : Nat} (d : Vector α w) (l : List α) (n : Nat) :
    Option (Vector α w × Nat) :=
  if n * w < l.length then some (padFront d (l.drop (n * w)), w - (l.length - n * w)) else none

/-- Cases of `Driver.count`. -/
theorem Driver.count_cases {α : Type} {w : Nat} (hw : 0 < w) {l : List α} {n : Nat}
    (h : Driver.count w l n) :
    n ≤ l.length / w ∧ n * w ≤ l.length ∧ l.length ≤ n * w + w ∧
      (l.length ≤ n * w → n = l.length / w) := by
  have h1 := Nat.div_add_mod l.length w
  have h2 := Nat.mod_lt l.length hw
  rw [Nat.mul_comm] at h1
  rcases h with h | ⟨h, h'⟩
  · rw [h]
    refine ⟨Nat.le_refl _, by omega, by omega, fun _ => rfl⟩
  · have e : l.length / w * w = n * w + w := by rw [← h', Nat.succ_mul]
    refine ⟨by omega, by omega, by omega, fun h3 => by omega⟩

theorem padFront_full {α : Type} {w : Nat} (d : Vector α w) (r : List α) (h : r.length = w) :
    padFront d r = windowAt r 0 w (by omega) := by
  ext j hj
  rw [padFront_getElem _ _ _ _ (by omega), dif_neg (by omega)]
  simp only [windowAt, Vector.getElem_ofFn, Nat.zero_add]
  congr 1; omega

theorem fullWindows_take {α : Type} {w : Nat} (hw : 0 < w) (l : List α) (n : Nat)
    (h : n < l.length / w) :
    fullWindows w l = (fullWindows w l).take n ++ fullWindows w (l.drop (n * w)) := by
  induction n generalizing l with
  | zero => simp
  | succ n ih =>
    have hl : w ≤ l.length := by
      rcases Nat.lt_or_ge l.length w with h1 | h1
      · rw [Nat.div_eq_of_lt h1] at h; omega
      · exact h1
    rw [fullWindows_cons hw hl, List.take_succ_cons, List.cons_append]
    congr 1
    have e := ih (l.drop w) (by
      rw [List.length_drop]
      rw [Nat.div_eq_sub_div hw hl] at h
      omega)
    rw [List.drop_drop, show w + n * w = (n + 1) * w by rw [Nat.succ_mul]; omega] at e
    exact e

/-- Whatever the number of vectors `next` delivers, the closure calls are the
call protocol. -/
theorem withTail_tailFrom {α : Type} {w : Nat} (hw : 0 < w) (d : Vector α w) (l : List α)
    {n : Nat} (h : Driver.count w l n) :
    withTail ((fullWindows w l).take n) (tailFrom d l n) = calls w d l := by
  have h1 := Nat.div_add_mod l.length w
  have h2 := Nat.mod_lt l.length hw
  rw [Nat.mul_comm] at h1
  rcases h with h | ⟨h, h'⟩
  · rw [List.take_of_length_le (by rw [fullWindows_length]; omega)]
    simp only [withTail, calls, tailFrom]
    subst h
    congr 1
    split
    · rw [if_neg (by omega)]; rfl
    · rw [if_pos (by omega)]; rfl
  · have e : l.length / w * w = n * w + w := by rw [← h', Nat.succ_mul]
    simp only [withTail, calls, tailFrom]
    rw [if_pos h, if_pos (by omega), List.append_nil]
    conv => rhs; rw [fullWindows_take hw l n (by omega)]
    congr 1
    have hd : (l.drop (n * w)).length = w := by simp; omega
    rw [fullWindows_cons hw (by omega), fullWindows_short (by simp; omega), padFront_full d _ hd]
    rfl

theorem padOf_tailFrom {α : Type} {w : Nat} (hw : 0 < w) (d : Vector α w) (l : List α)
    {n : Nat} (h : Driver.count w l n) :
    padOf (tailFrom d l n) = (w - l.length % w) % w := by
  have h1 := Nat.div_add_mod l.length w
  have h2 := Nat.mod_lt l.length hw
  rw [Nat.mul_comm] at h1
  simp only [padOf, tailFrom]
  rcases h with h | ⟨h, h'⟩
  · subst h
    by_cases h0 : l.length % w = 0
    · rw [if_neg (by omega), h0]; simp
    · rw [if_pos (by omega)]
      simp only [Option.map_some, Option.getD_some]
      rw [Nat.mod_eq_of_lt (a := w - l.length % w) (by omega)]
      omega
  · have e : l.length / w * w = n * w + w := by rw [← h', Nat.succ_mul]
    rw [if_pos (by omega), h]
    simp
    omega

section
variable {I α : Type} {w : Nat} [SIMDSized I] [SIMDIterator I α w]

/-- The vectors delivered by `next` from position `p`. -/
theorem Driver.runs_from {c : Cfg} {S : Nat → I} {l : List α} {d : Vector α w}
    {more : Nat → Prop} (h : Driver c S l d more) (hw : 0 < w) :
    ∀ p, p ≤ l.length → ∃ n, Runs c (S p) ((fullWindows w (l.drop p)).take n) (ok (S (p + n * w))) ∧
      ¬ more (p + n * w) ∧ Driver.count w (l.drop p) n := by
  intro p
  induction hk : l.length - p using Nat.strongRecOn generalizing p with
  | _ k ih =>
    intro hp
    by_cases hm : more p
    · obtain ⟨hle, hn⟩ := h.next_some p hm
      obtain ⟨n, hr, hs, hc⟩ := ih (l.length - (p + w)) (by omega) (p + w) rfl hle
      refine ⟨n + 1, ?_, ?_, ?_⟩
      · rw [fullWindows_cons hw (by simp; omega), List.take_succ_cons, List.drop_drop]
        have e : windowAt (l.drop p) 0 w (by simp; omega) = windowAt l p w hle := by
          ext i hi; simp [windowAt]
        rw [e, show p + (n + 1) * w = p + w + n * w by rw [Nat.succ_mul]; omega]
        exact Runs.step hn hr
      · rwa [show p + (n + 1) * w = p + w + n * w by rw [Nat.succ_mul]; omega]
      · simp only [Driver.count, List.length_drop] at hc ⊢
        rw [Nat.div_eq_sub_div hw (show w ≤ l.length - p by omega),
          Nat.mod_eq_sub_mod (show w ≤ l.length - p by omega),
          show l.length - p - w = l.length - (p + w) by omega]
        omega
    · refine ⟨0, ?_, by simpa using hm, ?_⟩
      · simpa using Runs.done (h.next_none p hp hm)
      · have := h.few p hm
        simp only [Driver.count, List.length_drop]
        by_cases h3 : l.length - p = w
        · right; rw [h3, Nat.mod_self, Nat.div_self hw]; simp
        · left; rw [Nat.div_eq_of_lt (by omega)]

/-- A complete pass from the start. -/
theorem Driver.emits {c : Cfg} {S : Nat → I} {l : List α} {d : Vector α w}
    {more : Nat → Prop} (h : Driver c S l d more) (hw : 0 < w) :
    ∃ n, Driver.count w l n ∧
      Emits c (S 0) ((fullWindows w l).take n) (ok (tailFrom d l n, S l.length)) := by
  obtain ⟨n, hr, hs, hc⟩ := h.runs_from hw 0 (Nat.zero_le _)
  simp only [List.drop_zero, Nat.zero_add] at hr hs hc
  obtain ⟨h1, h2, h3, -⟩ := Driver.count_cases hw hc
  refine ⟨n, hc, _, hr, ?_⟩
  simp only [ok_bind]
  rw [h.end_ _ h2 hs]
  · simp only [tailFrom]
    split
    · rfl
    · rw [show n * w = l.length by omega]
  · intro hlt
    by_cases hn : n = 0
    · left; rw [hn, Nat.zero_mul]
    · right
      have := Nat.le_mul_of_pos_left w (Nat.pos_of_ne_zero hn)
      omega

end

theorem tailFrom_some {α : Type} {w : Nat} {d : Vector α w} {l : List α} {k : Nat}
    {p : Vector α w} {n : Nat} (h : tailFrom d l k = some (p, n)) : n ≤ w := by
  unfold tailFrom at h
  split at h
  · simp only [Option.some.injEq, Prod.mk.injEq] at h; omega
  · cases h

section
variable {I α : Type} {w : Nat} [SIMDSized I] [SIMDIterator I α w]
variable {c : Cfg} {S : Nat → I} {l : List α} {d : Vector α w} {more : Nat → Prop}

/-- `simd_map` then `scalar_collect`, any closure. -/
theorem Driver.collect_map [Packable α] {β σ : Type} [Packable β] {w' : Nat}
    (h : Driver c S l d more) (fuel : Nat) (st : σ) (f : FnMut σ (Vector α w) (Vector β w'))
    (hw : 0 < w) (hw' : 0 < w') (hs : 0 < Packable.size β)
    (hsize : w * Packable.size α = w' * Packable.size β)
    (hlen' : (l.length / w + 1) * w' < c.usize)
    (hvec : w * Packable.size α < c.usize) (hfuel : l.length / w < fuel) :
    scalarCollect c fuel (simdMap (S 0) st f) = (do
      let (outs, st') ← callAll f st (calls w d l)
      ok (⟨S l.length, st', f⟩,
        (unpad ((w - l.length % w) % w * Packable.size α / Packable.size β) outs).map some)) := by
  obtain ⟨n, hc, he⟩ := h.emits hw
  obtain ⟨h1, h2, h3, h4⟩ := Driver.count_cases hw hc
  have hl : ((fullWindows w l).take n).length = n := by
    rw [List.length_take, fullWindows_length]; omega
  rw [scalarCollect_map f he hw' hs (h.len 0) (by omega) _ _ hlen' fuel (by omega) st,
    withTail_tailFrom hw d l hc, padOf_tailFrom hw d l hc]
  · intro ht
    rw [h.len, hl, h4]
    unfold tailFrom at ht
    split at ht
    · cases ht
    · omega
  · intro p m hpm
    have h5 := tailFrom_some hpm
    have h6 : m * Packable.size α ≤ w * Packable.size α := Nat.mul_le_mul_right _ h5
    refine ⟨by omega, ?_⟩
    rw [hsize] at h6
    exact Nat.div_le_of_le_mul (by rw [Nat.mul_comm (Packable.size β)]; exact h6)

/-- `simd_do_each`, any closure. -/
theorem Driver.do_each {σ : Type} (h : Driver c S l d more) (fuel : Nat) (st : σ)
    (f : FnMut σ (Vector α w) Unit) (hw : 0 < w) (hfuel : l.length / w < fuel) :
    simdDoEach c fuel (S 0) st f = (do
      let (_, st') ← callAll f st (calls w d l)
      ok (S l.length, st')) := by
  obtain ⟨n, hc, he⟩ := h.emits hw
  obtain ⟨h1, -⟩ := Driver.count_cases hw hc
  rw [simdDoEach_emits f he fuel st (by rw [List.length_take, fullWindows_length]; omega),
    withTail_tailFrom hw d l hc]

/-- `simd_reduce`, any closure. -/
theorem Driver.reduce {A σ : Type} (h : Driver c S l d more) (fuel : Nat) (start : A) (st : σ)
    (f : σ → A → Vector α w → Res (A × σ)) (hw : 0 < w) (hfuel : l.length / w < fuel) :
    simdReduce c fuel (S 0) start st f = (do
      let (acc, st') ← (calls w d l).foldlM (fun (acc, st) v => f st acc v) (start, st)
      ok (S l.length, acc, st')) := by
  obtain ⟨n, hc, he⟩ := h.emits hw
  obtain ⟨h1, -⟩ := Driver.count_cases hw hc
  rw [simdReduce_emits f he fuel start st (by rw [List.length_take, fullWindows_length]; omega),
    withTail_tailFrom hw d l hc]

end

/-- `SIMDIter` walks over the list its array represents. -/
theorem simdIter_driver {A α : Type} {w : Nat} [SIMDSized A] [SIMDArray A α w] {c : Cfg} {a : A}
    {l : List α} (h : Represents c a l) (d : Vector α w) (hw : 0 < w)
    (hu : l.length + w < c.usize) :
    Driver c (fun p => (⟨p, a, d⟩ : SIMDIter A α w)) l d (fun p => p + w ≤ l.length) where
  pos _ _ := rfl
  len p := by
    simp only [SIMDIterable.len, h.scalarLen, ok_bind]
    rw [udiv_ok hw]
  dflt _ := rfl
  next_some p hp := ⟨hp, simdIter_next_some h hp (by omega)⟩
  next_none p hp hm := simdIter_next_none h (by omega) (by omega)
  few p hm := by omega
  end_ p hp hm hs := simdIter_end h (by omega) hs hu

end Faster
