import Verif.Props.EndBlend
/-
C81: sequences of calls of the safe methods of a slice iterator, on targets
where `merge_partitioned` is the blend version.
-/
namespace Faster
open Res SIMDSized SIMDIterable SIMDIterator

section
variable {n w s : Nat}

/-- The iterator over `data` at `p`, on a target with the blend merge. -/
abbrev blendAt (data : List (BitVec n)) (d : Vector (BitVec n) w) (p : Nat) :
    Blend (SIMDIter (Slice (BitVec n) w) (BitVec n) w) :=
  ⟨iterAt data d p⟩

/-- Every call but `end` does the same on all targets. -/
theorem blend_step (c : Cfg) (data : List (BitVec n)) (d : Vector (BitVec n) w) (p : Nat)
    (op : IterOp) (h : op ≠ .end_) :
    op.step c (blendAt data d p) = (do
      let (o, it) ← op.step c (iterAt data d p)
      ok (o, ⟨it⟩)) := by
  cases op with
  | end_ => exact absurd rfl h
  | next =>
    simp only [IterOp.step, blend_next]
    cases next c (iterAt data d p) <;> rfl
  | scalar =>
    simp only [IterOp.step, Unpacked.next, unpack, SIMDIterable.scalarPos, SIMDSized.scalarLen,
      SIMDArray.loadScalarUnchecked, SIMDIterable.advance, ok_bind]
    by_cases h : p < data.length
    · rw [if_pos h, if_pos h]
      simp only [debugAssert, h, decide_true, Faster.assert, if_true, ite_self, ok_bind,
        getUnchecked, List.getElem?_eq_getElem h]
      cases SIMDIter.advance c (iterAt data d p) 1 <;> rfl
    · rw [if_neg h, if_neg h]; rfl
  | advance k =>
    simp only [IterOp.step, SIMDIterable.advance]
    cases SIMDIter.advance c (iterAt data d p) k <;> rfl
  | finalize =>
    simp only [IterOp.step, finalize, SIMDIterable.scalarPos, SIMDSized.scalarLen, ok_bind,
      SIMDIterable.advance]
    cases usub c data.length p with
    | ok k =>
      simp only [ok_bind]
      cases SIMDIter.advance c (iterAt data d p) k <;> rfl
    | _ => rfl
  | len =>
    simp only [IterOp.step, SIMDIterable.len, SIMDSized.scalarLen, ok_bind]
    cases udiv data.length w <;> rfl
  | scalarPos => rfl
  | scalarLen => rfl
  | vectorLen =>
    simp only [IterOp.step, SIMDIterable.vecLen, SIMDSized.scalarLen, ok_bind]
    cases udiv data.length w <;> rfl
  | vectorPos =>
    simp only [IterOp.step, SIMDIterable.vectorPos, ok_bind]
    cases udiv p w <;> rfl
  | load o =>
    simp only [IterOp.step, SIMDArray.load]
    cases (Packed.load data o : Res (Vector (BitVec n) w)) <;> rfl
  | loadScalar o =>
    simp only [IterOp.step, SIMDArray.loadScalar]
    cases index data o <;> rfl

/-- A call of `end` with undefined behaviour on a target with the blend merge:
in a release build, inside a collection of at most one vector and not at its
start, or with a number of elements left between 64 bytes and `128 - 64 / SIZE`
elements. -/
def BadEnd (c : Cfg) (len w s p : Nat) : Prop :=
  c.debug = false ∧ p < len ∧
    ((0 < p ∧ len ≤ w) ∨ (64 / s < len - p ∧ len - p + 64 / s ≤ 128))

/-- The outcomes of one call. -/
theorem blend_step_spec (c : Cfg) (hn : n = 8 * s) (hs : 0 < s) (hd : 64 % s = 0)
    (hws : w * s ≤ 64) (hw : 0 < w) (data : List (BitVec n)) (d : Vector (BitVec n) w) (p : Nat)
    (hlen : data.length + 64 < c.usize) (hp : p < c.usize) (op : IterOp) :
    (op.step c (blendAt data d p) = ub ∧ op = .end_ ∧ BadEnd c data.length w s p) ∨
    (¬ (op = .end_ ∧ BadEnd c data.length w s p) ∧
      (op.step c (blendAt data d p) = panic ∨
       ∃ o q, op.step c (blendAt data d p) = ok (o, blendAt data d q) ∧ q < c.usize)) := by
  obtain ⟨hw', h128, h64⟩ := size_bound hs hd hws
  have h64' : 64 / s ≤ 64 := Nat.div_le_self _ _
  by_cases hop : op = .end_
  · subst hop
    simp only [IterOp.step, SIMDIterator.end_]
    rw [C80_end_exact c hn hs hd hws hw (by omega) (represents_slice (w := w) c data) p d hlen]
    by_cases h1 : data.length ≤ p
    · rw [if_pos h1]
      exact .inr ⟨by simp only [BadEnd]; omega, .inr ⟨.tail none, p, rfl, hp⟩⟩
    · rw [if_neg h1]
      by_cases h2 : w < data.length - p
      · rw [dif_pos h2]
        cases hdbg : c.debug with
        | true => exact .inr ⟨by simp [BadEnd, hdbg], .inl rfl⟩
        | false =>
          simp only [Bool.false_eq_true, if_false]
          by_cases h3 : data.length - p ≤ 64 / s
          · rw [if_pos h3]
            exact .inr ⟨by simp only [BadEnd]; omega, .inr ⟨.tail (some _), data.length, rfl, by omega⟩⟩
          · rw [if_neg h3]
            by_cases h4 : data.length - p + 64 / s ≤ 128
            · rw [if_pos h4]
              exact .inl ⟨rfl, trivial, hdbg, by omega, .inr ⟨by omega, h4⟩⟩
            · rw [if_neg h4]
              exact .inr ⟨by simp only [BadEnd]; omega, .inl rfl⟩
      · rw [dif_neg h2]
        by_cases h3 : 0 < p ∧ data.length ≤ w
        · rw [if_pos h3]
          cases hdbg : c.debug with
          | true => exact .inr ⟨by simp [BadEnd, hdbg], .inl (by simp [badAccess, hdbg])⟩
          | false => exact .inl ⟨by simp [badAccess, hdbg], trivial, hdbg, by omega, .inl h3⟩
        · rw [if_neg h3]
          exact .inr ⟨by simp only [BadEnd]; omega, .inr ⟨.tail (some _), data.length, rfl, by omega⟩⟩
  · refine .inr ⟨fun h => hop h.1, ?_⟩
    rw [blend_step c data d p op hop]
    rcases step_spec c data d p (by omega) hp op with ⟨-, h⟩ | ⟨-, h | ⟨o, q, h, hq, -⟩⟩
    · exact absurd h.2.1 hop
    · exact .inl (by rw [h]; rfl)
    · exact .inr ⟨o, q, by rw [h]; rfl, hq⟩

/-- **C81 is false, exactly**: on a target with the blend merge a sequence of
calls has undefined behaviour if and only if it calls `end` where `BadEnd`
holds. -/
theorem C81_exact (c : Cfg) (hn : n = 8 * s) (hs : 0 < s) (hd : 64 % s = 0) (hws : w * s ≤ 64)
    (hw : 0 < w) (data : List (BitVec n)) (d : Vector (BitVec n) w)
    (hlen : data.length + 64 < c.usize) : ∀ (ops : List IterOp) (p : Nat), p < c.usize →
    (runOps c (blendAt data d p) ops = ub ↔
      ∃ pre post os q, ops = pre ++ .end_ :: post ∧
        runOps c (blendAt data d p) pre = ok (os, blendAt data d q) ∧
        BadEnd c data.length w s q) := by
  intro ops
  induction ops with
  | nil =>
    intro p _
    constructor
    · intro h; cases h
    · rintro ⟨pre, post, os, q, h, -⟩
      simp at h
  | cons op ops ih =>
    intro p hp
    have key : ∀ pre post os q, op :: ops = pre ++ .end_ :: post →
        runOps c (blendAt data d p) pre = ok (os, blendAt data d q) →
        BadEnd c data.length w s q →
        (op = .end_ ∧ BadEnd c data.length w s p) ∨
          ∃ pre', pre = op :: pre' ∧ ops = pre' ++ .end_ :: post := by
      intro pre post os q h1 h2 h3
      cases pre with
      | nil =>
        simp only [List.nil_append, List.cons.injEq] at h1
        simp only [runOps, ok.injEq, Prod.mk.injEq, Blend.mk.injEq, SIMDIter.mk.injEq] at h2
        obtain ⟨-, h2, -⟩ := h2
        subst h2
        exact .inl ⟨h1.1, h3⟩
      | cons a pre' =>
        simp only [List.cons_append, List.cons.injEq] at h1
        exact .inr ⟨pre', by rw [h1.1], h1.2⟩
    rcases blend_step_spec c hn hs hd hws hw data d p hlen hp op with
      ⟨h1, h2, h3⟩ | ⟨hb, h1 | ⟨o, q1, h1, hq1⟩⟩
    · constructor
      · intro _
        exact ⟨[], ops, [], p, by rw [h2]; rfl, rfl, h3⟩
      · intro _
        simp only [runOps, h1, ub_bind]
    · constructor
      · intro h
        simp only [runOps, h1, panic_bind] at h
        cases h
      · rintro ⟨pre, post, os, q, h3, h4, h5⟩
        rcases key pre post os q h3 h4 h5 with h | ⟨pre', rfl, -⟩
        · exact absurd h hb
        · simp only [runOps, h1, panic_bind] at h4
          cases h4
    · have e : runOps c (blendAt data d p) (op :: ops) = ub ↔
          runOps c (blendAt data d q1) ops = ub := by
        simp only [runOps, h1, ok_bind]
        cases runOps c (blendAt data d q1) ops <;> simp
      rw [e, ih q1 hq1]
      constructor
      · rintro ⟨pre, post, os, q, h3, h4, h5⟩
        exact ⟨op :: pre, post, o :: os, q, by rw [h3]; rfl, by simp only [runOps, h1, h4, ok_bind],
          h5⟩
      · rintro ⟨pre, post, os, q, h3, h4, h5⟩
        rcases key pre post os q h3 h4 h5 with h | ⟨pre', rfl, h9⟩
        · exact absurd h hb
        · simp only [runOps, h1, ok_bind] at h4
          cases h10 : runOps c (blendAt data d q1) pre' with
          | ok r =>
            rw [h10] at h4
            simp only [ok_bind, ok.injEq, Prod.mk.injEq] at h4
            exact ⟨pre', post, r.1, q, h9, by rw [h10, ← h4.2], h5⟩
          | panic => rw [h10] at h4; cases h4
          | ub => rw [h10] at h4; cases h4
          | hang => rw [h10] at h4; cases h4

/-- **C81 is false**: the single call `end` on a fresh iterator over any `u32`
collection of 17 to 112 elements reads out of bounds in release builds with
SSE4.1. -/
theorem C81_false (data : List (BitVec 32)) (d : Vector (BitVec 32) 4)
    (h1 : 17 ≤ data.length) (h2 : data.length ≤ 112) :
    runOps release64 (⟨simdIter data d⟩ : Blend (SIMDIter (Slice (BitVec 32) 4) (BitVec 32) 4))
      [.end_] = ub := by
  have h64 : release64.usize = 18446744073709551616 := by decide
  refine (C81_exact (s := 4) release64 rfl (by decide) (by decide) (by decide) (by decide) data d
    (by omega) [.end_] 0 (by omega)).2 ⟨[], [], [], 0, rfl, rfl, rfl, by omega, .inr ?_⟩
  omega

/-- The same in general: every lane size but one byte, every vector width. -/
theorem C81_fresh_end (c : Cfg) (hdbg : c.debug = false) (hn : n = 8 * s) (hs : 0 < s)
    (hd : 64 % s = 0) (hws : w * s ≤ 64) (hw : 0 < w) (data : List (BitVec n))
    (d : Vector (BitVec n) w) (hlen : data.length + 64 < c.usize) (h1 : 64 / s < data.length)
    (h2 : data.length + 64 / s ≤ 128) :
    runOps c (⟨simdIter data d⟩ : Blend (SIMDIter (Slice (BitVec n) w) (BitVec n) w))
      [.end_] = ub :=
  (C81_exact c hn hs hd hws hw data d hlen [.end_] 0 (by omega)).2
    ⟨[], [], [], 0, rfl, rfl, hdbg, Nat.lt_of_le_of_lt (Nat.zero_le _) h1, .inr ⟨by omega, by omega⟩⟩

/-- **C81**, the part which holds: sequences of calls of every length are memory
safe in debug builds, or if `end` is not called, or if the lanes have one byte
and the collection is longer than a vector, or if the collection is longer than
a vector and `end` is only called with at most 64 bytes left. Missing:
`C81_exact`. -/
theorem C81_safe_partial (c : Cfg) (hn : n = 8 * s) (hs : 0 < s) (hd : 64 % s = 0)
    (hws : w * s ≤ 64) (hw : 0 < w) (data : List (BitVec n)) (d : Vector (BitVec n) w) (p : Nat)
    (ops : List IterOp) (hlen : data.length + 64 < c.usize) (hp : p < c.usize)
    (h : c.debug = true ∨ .end_ ∉ ops ∨ (w < data.length ∧ (s = 1 ∨
      ∀ pre post os q, ops = pre ++ .end_ :: post →
        runOps c (blendAt data d p) pre = ok (os, blendAt data d q) →
        data.length - q ≤ 64 / s))) :
    (runOps c (blendAt data d p) ops).isSafe := by
  have h2 : runOps c (blendAt data d p) ops ≠ ub := by
    rw [ne_eq, C81_exact c hn hs hd hws hw data d hlen ops p hp]
    rintro ⟨pre, post, os, q, h3, h4, h5, h6, h7⟩
    rcases h with h | h | ⟨hl, h | h⟩
    · rw [h] at h5; cases h5
    · rw [h3] at h; simp at h
    · subst h; omega
    · have := h pre post os q h3 h4
      omega
  cases h3 : runOps c (blendAt data d p) ops with
  | ub => exact absurd h3 h2
  | _ => trivial

/-- Elements are lost where the fallback panics: `end` at `p` with more than a
vector and at most 64 bytes left finishes the iterator, hands out only the last
vector, and reports all its lanes as filled with the default. -/
theorem C81_elements_lost (c : Cfg) (hdbg : c.debug = false) (hn : n = 8 * s) (hs : 0 < s)
    (hd : 64 % s = 0) (hws : w * s ≤ 64) (hw : 0 < w) (data : List (BitVec n))
    (d : Vector (BitVec n) w) (p : Nat) (hlen : data.length + 128 < c.usize)
    (h1 : w < data.length - p) (h2 : data.length - p ≤ 64 / s) :
    ∃ v k, runOps c (blendAt data d p) [.end_] =
        ok ([.tail (some (v, k))], blendAt data d data.length) ∧
      v.toList = data.drop (data.length - w) ∧ w < k ∧
      (IterOut.tail (some (v, k))).delivered = [] := by
  have h64' : 64 / s ≤ 64 := Nat.div_le_self _ _
  have hex := C80_end_exact c hn hs hd hws hw (by omega) (represents_slice (w := w) c data) p d
    (by omega)
  rw [if_neg (by omega), dif_pos h1, hdbg] at hex
  simp only [Bool.false_eq_true, if_false] at hex
  rw [if_pos h2] at hex
  refine ⟨windowAt data (data.length - w) w (by omega), c.usize - (data.length - p - w), ?_, ?_,
    by omega, ?_⟩
  · simp only [runOps, IterOp.step, SIMDIterator.end_, hex, ok_bind]
  · rw [windowAt_toList, List.take_of_length_le (by simp; omega)]
  · simp only [IterOut.delivered]
    apply List.drop_eq_nil_of_le
    simp; omega

end

-- Non-vacuity: one `next` and an `end` over 5 lanes of 4; a longer collection.
example : (runOps release64 (blendAt [1#32, 2, 3, 4, 5] #v[0#32, 0, 0, 0] 0) [.next, .end_]) =
    ok ([.vec (some #v[1#32, 2, 3, 4]), .tail (some (#v[0#32, 0, 0, 5], 3))],
      blendAt [1#32, 2, 3, 4, 5] #v[0#32, 0, 0, 0] 5) := by decide +kernel

end Faster
