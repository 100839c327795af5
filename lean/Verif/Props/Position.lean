import Verif.Props.Fill
/-
C13, C14, C15, C16, C33, C34: `end`, exhaustion, lengths and positions.
-/
namespace Faster
open Res SIMDSized SIMDIterable SIMDIterator

/-! ### C13, C14 -/

/-- **C13 is false**: from a position `0 < p` inside a slice of at most one
vector, `end` always writes to a lane outside its vector (debug builds panic). -/
theorem C13_end_out_of_bounds {α : Type} {w : Nat} (c : Cfg) (data : List α) (d : Vector α w)
    (p : Nat) (hlen : data.length + w < c.usize)
    (hp0 : 0 < p) (hp : p < data.length) (hdw : data.length ≤ w) :
    end_ c (⟨p, ⟨data⟩, d⟩ : SIMDIter (Slice α w) α w) = if c.debug then panic else ub := by
  rw [simdIter_end_exact (represents_slice c data) p d hlen, if_neg (by omega), if_neg (by omega),
    if_pos (by omega), badAccess]

/-- Reachable instance: `unpack`, take one scalar, `pack`, then `end`. -/
theorem C13_false : ∃ (data : List (BitVec 8)) (x : BitVec 8)
    (u : Unpacked (SIMDIter (Slice (BitVec 8) 4) (BitVec 8) 4)),
    Unpacked.next release64 (unpack (simdIter (w := 4) data (Vector.replicate 4 0))) = ok (some x, u) ∧
    end_ release64 u.pack = ub :=
  ⟨[1, 2, 3], 1, ⟨⟨1, ⟨[1, 2, 3]⟩, Vector.replicate 4 0⟩⟩, by decide +kernel,
    C13_end_out_of_bounds release64 _ _ 1 (by decide) (by decide) (by decide) (by decide)⟩

/-- **C13**, the part which holds: at the start, past the end, or for slices
longer than a vector, `end` has no undefined behaviour (it panics if more than
a vector is left). Missing: positions inside slices of at most one vector
(`C13_end_out_of_bounds`). -/
theorem C13_end_safe_partial {α : Type} {w : Nat} (c : Cfg) (data : List α) (d : Vector α w)
    (p : Nat) (hlen : data.length + w < c.usize)
    (hp : p = 0 ∨ data.length ≤ p ∨ w < data.length) :
    (end_ c (⟨p, ⟨data⟩, d⟩ : SIMDIter (Slice α w) α w)).isSafe := by
  rw [simdIter_end_exact (represents_slice c data) p d hlen]
  split
  · trivial
  · split
    · trivial
    · rw [if_neg (by omega)]; trivial

example : (end_ debug64 (⟨1, ⟨[1, 2, 3, 4, 5]⟩, #v[0, 0]⟩ :
    SIMDIter (Slice (BitVec 8) 2) (BitVec 8) 2)) = panic := by decide +kernel

/-- **C14**, wherever `end` is safe (see C13): with at most a vector left, `end`
returns the remaining elements right aligned after the default's lanes and the
number of default lanes; with none left it returns `None`; afterwards nothing is
left. The part missing is exactly the failure of C13. -/
theorem C14_end_contents_partial {α : Type} {w : Nat} (c : Cfg) (data : List α) (d : Vector α w)
    (p : Nat) (hlen : data.length + w < c.usize) (hr : data.length ≤ p + w)
    (hp : p = 0 ∨ w < data.length) :
    ∃ it', end_ c (⟨p, ⟨data⟩, d⟩ : SIMDIter (Slice α w) α w) =
        ok (if data.length ≤ p then none
          else some (padFront d (data.drop p), w - (data.length - p)), it') ∧
      end_ c it' = ok (none, it') ∧
      (p + w < c.usize → 0 < w → next c it' = ok (none, it')) := by
  rw [simdIter_end_exact (represents_slice c data) p d hlen]
  by_cases h : data.length ≤ p
  · simp only [h, if_true]
    refine ⟨_, rfl, ?_, ?_⟩
    · rw [simdIter_end_exact (represents_slice c data) p d hlen, if_pos h]
    · intro hu hw
      exact simdIter_next_none (represents_slice c data) (by omega) hu
  · rw [if_neg h, if_neg (by omega), if_neg (by omega), if_neg h]
    refine ⟨_, rfl, ?_, ?_⟩
    · rw [simdIter_end_exact (represents_slice c data) _ d hlen, if_pos (Nat.le_refl _)]
    · intro _ hw
      exact simdIter_next_none (represents_slice c data) (by omega) hlen

/-- The lanes of the vector returned by `end`, spelled out. -/
theorem C14_lanes {α : Type} {w : Nat} (d : Vector α w) (r : List α) (h : r.length ≤ w) (j : Nat)
    (hj : j < w) :
    (padFront d r)[j] = if h2 : j < w - r.length then d[j] else r[j - (w - r.length)] :=
  padFront_getElem d r j hj h

/-- C14 does not hold everywhere. -/
theorem C14_false : ∃ (data : List (BitVec 8)) (p : Nat), p < data.length ∧ data.length ≤ p + 4 ∧
    ¬ ∃ r, end_ release64 (⟨p, ⟨data⟩, Vector.replicate 4 0⟩ :
      SIMDIter (Slice (BitVec 8) 4) (BitVec 8) 4) = ok r :=
  ⟨[1, 2, 3], 1, by decide, by decide, by
    rw [C13_end_out_of_bounds release64 _ _ 1 (by decide) (by decide) (by decide) (by decide)]
    rintro ⟨r, h⟩; cases h⟩

example : end_ release64 (⟨4, ⟨[1, 2, 3, 4, 5, 6]⟩, #v[9, 8, 7, 6]⟩ :
    SIMDIter (Slice (BitVec 8) 4) (BitVec 8) 4) =
    ok (some (#v[9, 8, 5, 6], 2), ⟨6, ⟨[1, 2, 3, 4, 5, 6]⟩, #v[9, 8, 7, 6]⟩) := by decide +kernel

/-! ### C15 -/

/-- Nothing more comes out of the iterator and its state does not change. -/
def Exhausted {I α : Type} {w : Nat} [SIMDSized I] [SIMDIterator I α w] (c : Cfg) (it : I) : Prop :=
  next c it = ok (none, it) ∧ end_ c it = ok (none, it)

/-- **C15** for iterators over arrays, `next`: a `None` leaves the iterator as it is, so
all further calls return `None`. -/
theorem C15_next_none {A α : Type} {w : Nat} [SIMDSized A] [SIMDArray A α w] (c : Cfg)
    (it it' : SIMDIter A α w) (h : next c it = ok (none, it')) : next c it' = ok (none, it') := by
  have e : it' = it := by
    simp only [SIMDIterable.next, SIMDIter.next, SIMDIter.advance] at h
    cases h1 : uadd c it.position w with
    | ok x =>
      cases h2 : scalarLen c it with
      | ok len =>
        rw [h1, h2, ok_bind, ok_bind] at h
        by_cases h3 : x ≤ len
        · rw [if_pos h3] at h
          cases h4 : SIMDArray.loadUnchecked c it it.position with
          | ok v => rw [h4] at h; simp at h
          | _ => rw [h4] at h; cases h
        · rw [if_neg h3] at h
          simp only [ok.injEq, Prod.mk.injEq, true_and] at h
          exact h.symm
      | _ => rw [h1, h2] at h; cases h
    | _ => rw [h1] at h; cases h
  rw [e]
  rw [e] at h
  exact h

/-- **C15** for slice iterators, `end`: whatever `end` returned, the iterator is
exhausted afterwards. Missing: positions near the end of the `usize` range, see
`C15_false` and `C15_end_any`. -/
theorem C15_end_partial {α : Type} {w : Nat} (c : Cfg) (data : List α) (d : Vector α w) (p : Nat)
    (hw : 0 < w) (hlen : data.length + w < c.usize) (hp : p + w < c.usize)
    (r : Option (Vector α w × Nat)) (it' : SIMDIter (Slice α w) α w)
    (h : end_ c (⟨p, ⟨data⟩, d⟩ : SIMDIter (Slice α w) α w) = ok (r, it')) :
    Exhausted c it' := by
  have hr := represents_slice (w := w) c data
  rw [simdIter_end_exact hr p d hlen] at h
  by_cases h1 : data.length ≤ p
  · rw [if_pos h1] at h
    simp only [ok.injEq, Prod.mk.injEq] at h
    rw [← h.2]
    exact ⟨simdIter_next_none hr (by omega) hp, by
      rw [simdIter_end_exact hr p d hlen, if_pos h1]⟩
  · rw [if_neg h1] at h
    by_cases h2 : w < data.length - p
    · simp [h2] at h
    · rw [if_neg h2] at h
      by_cases h3 : 0 < p ∧ data.length ≤ w
      · rw [if_pos h3] at h
        unfold badAccess at h
        split at h <;> cases h
      · rw [if_neg h3] at h
        simp only [ok.injEq, Prod.mk.injEq] at h
        rw [← h.2]
        exact ⟨simdIter_next_none hr (by omega) hlen, by
          rw [simdIter_end_exact hr _ d hlen, if_pos (Nat.le_refl _)]⟩

/-- **C15**: an exhausted iterator stays exhausted under `simd_map`. -/
theorem C15_map {I σ α β : Type} {w w' : Nat} [SIMDSized I] [SIMDIterator I α w] [Packable α]
    [Packable β] (c : Cfg) (it : I) (st : σ) (f : FnMut σ (Vector α w) (Vector β w'))
    (h : Exhausted c it) : Exhausted c (simdMap it st f) := by
  constructor
  · simp [simdMap, SIMDIterable.next, SIMDMap.next, h.1]
  · simp [simdMap, SIMDIterator.end_, SIMDMap.end_, h.2]

/-- **C15**: reducing an exhausted iterator returns the start value without
calling the closure. -/
theorem C15_reduce {I α A σ : Type} {w : Nat} [SIMDSized I] [SIMDIterator I α w] (c : Cfg)
    (fuel : Nat) (it : I) (start : A) (st : σ) (f : σ → A → Vector α w → Res (A × σ))
    (h : Exhausted c it) :
    simdReduce c (fuel + 1) it start st f = ok (it, start, st) := by
  simp [simdReduce, reduceLoop, h.1, h.2]

/-- **C15**: `simd_do_each` on an exhausted iterator does not call the closure. -/
theorem C15_do_each {I α σ : Type} {w : Nat} [SIMDSized I] [SIMDIterator I α w] (c : Cfg)
    (fuel : Nat) (it : I) (st : σ) (f : FnMut σ (Vector α w) Unit) (h : Exhausted c it) :
    simdDoEach c (fuel + 1) it st f = ok (it, st) := by
  simp [simdDoEach, doEachLoop, h.1, h.2]

/-- **C15**: after a complete pass (any consumer made of `next` until `None`, then
`end`), a slice iterator is exhausted. -/
theorem C15_after_pass {α : Type} {w : Nat} (c : Cfg) (data : List α) (d : Vector α w)
    (hw : 0 < w) (hlen : data.length + w < c.usize)
    (vs : List (Vector α w)) (it' it'' : SIMDIter (Slice α w) α w) (r : Option (Vector α w × Nat))
    (h1 : Runs c (simdIter data d) vs (ok it')) (h2 : end_ c it' = ok (r, it'')) :
    Exhausted c it'' := by
  have hruns := simdIter_runs (represents_slice (w := w) c data) d hw hlen 0 (by omega)
  have := Runs.unique h1 hruns
  obtain ⟨-, e⟩ := this
  simp only [ok.injEq] at e
  subst e
  have := Nat.div_mul_le_self (data.length - 0) w
  exact C15_end_partial c data d _ hw hlen (by omega) r it'' h2

example : Exhausted debug64 (⟨3, ⟨[1, 2, 3]⟩, #v[0, 0]⟩ : SIMDIter (Slice (BitVec 8) 2) (BitVec 8) 2) :=
  C15_end_partial debug64 [1, 2, 3] #v[0, 0] 2 (by decide) (by decide) (by decide)
    (some (#v[0, 3], 1)) _ (by decide +kernel)

/-! ### C16 -/

/-- `len()` of a slice iterator at any position. -/
theorem C16_len {α : Type} {w : Nat} (c : Cfg) (data : List α) (d : Vector α w) (p : Nat)
    (hw : 0 < w) :
    SIMDIterable.len c (⟨p, ⟨data⟩, d⟩ : SIMDIter (Slice α w) α w) = ok (data.length / w) :=
  simdIter_len c hw data d p

/-- **C16 is false**: after any successful `next`, `len()` is larger than the
number of vectors still to come. -/
theorem C16_len_wrong {α : Type} {w : Nat} (c : Cfg) (data : List α) (d v : Vector α w)
    (hw : 0 < w) (hlen : data.length + w < c.usize) (it' : SIMDIter (Slice α w) α w)
    (h : next c (simdIter data d) = ok (some v, it')) :
    ∃ vs r L, Runs c it' vs (ok r) ∧ SIMDIterable.len c it' = ok L ∧ vs.length < L := by
  have hr := represents_slice (w := w) c data
  by_cases h1 : 0 + w ≤ data.length
  · rw [simdIter, simdIter_next_some hr h1 (by omega)] at h
    simp only [ok.injEq, Prod.mk.injEq] at h
    rw [← h.2]
    refine ⟨_, _, _, simdIter_runs hr d hw hlen (0 + w) (by omega), C16_len c data d _ hw, ?_⟩
    rw [fullWindows_length, List.length_drop, Nat.div_eq_sub_div (a := data.length) hw (by omega)]
    simp
  · rw [simdIter, simdIter_next_none hr (by omega) (by omega)] at h
    simp at h

theorem C16_false : ∃ (data : List (BitVec 32)) (v : Vector (BitVec 32) 2)
    (it' : SIMDIter (Slice (BitVec 32) 2) (BitVec 32) 2),
    next debug64 (simdIter (w := 2) data #v[0, 0]) = ok (some v, it') ∧
    SIMDIterable.len debug64 it' = ok 1 ∧ next debug64 it' = ok (none, it') :=
  ⟨[1, 2], #v[1, 2], ⟨2, ⟨[1, 2]⟩, #v[0, 0]⟩, by decide +kernel, by decide +kernel,
    by decide +kernel⟩

/-- **C16**, the part which holds: on a fresh iterator. Missing: every other
state (`C16_len_wrong`). -/
theorem C16_len_fresh_partial {α : Type} {w : Nat} (c : Cfg) (data : List α) (d : Vector α w)
    (hw : 0 < w) (hlen : data.length + w < c.usize) :
    ∃ vs r, Runs c (simdIter data d) vs (ok r) ∧
      SIMDIterable.len c (simdIter data d) = ok vs.length := by
  refine ⟨_, _, simdIter_runs (represents_slice (w := w) c data) d hw hlen 0 (by omega), ?_⟩
  rw [simdIter, C16_len c data d 0 hw, fullWindows_length, List.length_drop, Nat.sub_zero]

example : SIMDIterable.len release64 (simdIter (w := 2) [1#8, 2, 3, 4, 5] #v[0, 0]) = ok 2 := by
  decide +kernel

/-! ### C33 -/

/-- **C33** for slice iterators, at any position. -/
theorem C33_lengths_slice_partial {α : Type} {w : Nat} (c : Cfg) (data : List α) (d : Vector α w)
    (p : Nat) (hw : 0 < w) :
    scalarLen c (⟨p, ⟨data⟩, d⟩ : SIMDIter (Slice α w) α w) = ok data.length ∧
    vectorLen w c (⟨p, ⟨data⟩, d⟩ : SIMDIter (Slice α w) α w) = ok (data.length / w) := by
  constructor
  · rfl
  · simp only [vectorLen, SIMDSized.scalarLen, ok_bind]
    exact udiv_ok hw

/-- **C33 is false for maps**: `scalar_len` of a map over a non-empty slice is
never the number of scalars (for vectors of two or more lanes). -/
theorem C33_map_scalar_len_wrong {α β σ : Type} {w w' : Nat} (c : Cfg) (data : List α)
    (d : Vector α w) (st : σ) (f : FnMut σ (Vector α w) (Vector β w')) (hw : 2 ≤ w) (hne : data ≠ []) :
    scalarLen c (simdMap (simdIter data d) st f) ≠ ok data.length := by
  have h : scalarLen c (simdMap (simdIter data d) st f) = ok (data.length / w) :=
    C16_len c data d 0 (by omega)
  rw [h]
  have hpos : 0 < data.length := List.length_pos_iff.mpr hne
  have := Nat.div_lt_self hpos hw
  intro e
  simp only [ok.injEq] at e
  omega

theorem C33_false : ∃ data : List (BitVec 8),
    scalarLen debug64 (simdMap (simdIter (w := 4) data (Vector.replicate 4 0)) ()
      (pureFn (Vector.map (· + 1#8)))) ≠ ok data.length :=
  ⟨[1, 2, 3, 4], C33_map_scalar_len_wrong debug64 _ _ _ _ (by decide) (by decide)⟩

/-! ### C34 -/

/-- **C34** for slice iterators: `advance(k)` then a full pass delivers what a
pass over the collection without its first `p + k` elements delivers. -/
theorem C34_advance_partial {α : Type} {w : Nat} (c : Cfg) (data : List α) (d : Vector α w)
    (p k : Nat) (hw : 0 < w) (hlen : data.length + w < c.usize) (hk : p + k + w < c.usize) :
    ∃ it' r, advance c (⟨p, ⟨data⟩, d⟩ : SIMDIter (Slice α w) α w) k = ok it' ∧
      scalarPos c it' = ok (p + k) ∧
      Runs c it' (fullWindows w (data.drop (p + k))) (ok r) := by
  refine ⟨⟨p + k, ⟨data⟩, d⟩, _, ?_, rfl,
    simdIter_runs (represents_slice (w := w) c data) d hw hlen (p + k) hk⟩
  simp only [SIMDIterable.advance, SIMDIter.advance]
  rw [uadd_ok (by omega)]
  rfl

/-- **C34** for slice iterators: after `finalize` nothing is delivered. -/
theorem C34_finalize_partial {α : Type} {w : Nat} (c : Cfg) (data : List α) (d : Vector α w)
    (p : Nat) (hw : 0 < w) (hlen : data.length + w < c.usize) (hp : p ≤ data.length) :
    ∃ it', finalize c (⟨p, ⟨data⟩, d⟩ : SIMDIter (Slice α w) α w) = ok it' ∧ Exhausted c it' := by
  refine ⟨⟨data.length, ⟨data⟩, d⟩, ?_, ?_, ?_⟩
  · simp only [finalize, SIMDSized.scalarLen, SIMDIterable.scalarPos, ok_bind, usub_ok hp,
      SIMDIterable.advance, SIMDIter.advance]
    rw [uadd_ok (by omega)]
    simp only [ok_bind]
    rw [show p + (data.length - p) = data.length by omega]
  · exact simdIter_next_none (represents_slice c data) (by omega) hlen
  · rw [simdIter_end_exact (represents_slice c data) _ d hlen, if_pos (Nat.le_refl _)]

/-- **C34 is false for maps**: `finalize` on a fresh map moves only as many
scalars ahead as there are vectors. -/
theorem C34_map_finalize_wrong {α β σ : Type} [Packable β] {w w' : Nat} (c : Cfg) (data : List α)
    (d : Vector α w) (st : σ) (f : FnMut σ (Vector α w) (Vector β w'))
    (hw : 0 < w) (hlen : data.length < c.usize) :
    finalize c (simdMap (simdIter data d) st f) =
      ok ⟨⟨data.length / w, ⟨data⟩, d⟩, st, f⟩ := by
  have h : scalarLen c (simdMap (simdIter data d) st f) = ok (data.length / w) :=
    C16_len c data d 0 hw
  have := Nat.div_le_self data.length w
  simp only [finalize, h, ok_bind]
  simp only [SIMDIterable.scalarPos, simdMap, simdIter, ok_bind]
  rw [usub_ok (Nat.zero_le _)]
  simp only [ok_bind, SIMDIterable.advance, SIMDIter.advance]
  rw [uadd_ok (by omega)]
  simp

/-- After `finalize`, a map over a slice of at least two vectors of at least two
lanes still delivers a vector. -/
theorem C34_map_not_finished {α β : Type} [Packable α] [Packable β] {w w' : Nat} (c : Cfg)
    (data : List α) (d : Vector α w) (g : Vector α w → Vector β w')
    (hw : 2 ≤ w) (hlen : data.length + w < c.usize) (h2 : 2 * w ≤ data.length) :
    ∃ m m' v, finalize c (simdMap (simdIter data d) () (pureFn g)) = ok m ∧
      next c m = ok (some v, m') := by
  have h1 : data.length / w + w ≤ data.length := by
    have h3 : data.length / w ≤ data.length / 2 := Nat.div_le_div_left hw (by omega)
    omega
  refine ⟨_, ⟨⟨data.length / w + w, ⟨data⟩, d⟩, (), pureFn g⟩, g (windowAt data (data.length / w) w h1),
    C34_map_finalize_wrong c data d () (pureFn g) (by omega) (by omega), ?_⟩
  have h := simdIter_next_some (represents_slice (w := w) c data) (d := d) h1 (by omega)
  simp only [SIMDIterable.next] at h
  simp only [SIMDIterable.next, SIMDMap.next, h, ok_bind, pureFn]

theorem C34_false : ∃ (data : List (BitVec 8)) (m m' : SIMDMap (SIMDIter (Slice (BitVec 8) 2) (BitVec 8) 2)
    Unit (BitVec 8) 2 (BitVec 8) 2) (v : Vector (BitVec 8) 2),
    finalize debug64 (simdMap (simdIter (w := 2) data #v[0, 0]) () (pureFn (Vector.map (· + 1#8)))) =
      ok m ∧ next debug64 m = ok (some v, m') :=
  ⟨[1, 2, 3, 4], C34_map_not_finished debug64 _ _ _ (by decide) (by decide) (by decide)⟩

example : finalize debug64 (⟨1, ⟨[1, 2, 3]⟩, #v[0, 0]⟩ : SIMDIter (Slice (BitVec 8) 2) (BitVec 8) 2) =
    ok ⟨3, ⟨[1, 2, 3]⟩, #v[0, 0]⟩ := by decide +kernel

end Faster
