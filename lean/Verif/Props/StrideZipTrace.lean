import Verif.Props.ZipTrace
import Verif.Props.StrideZip
/-
C97, C98: arbitrary sequences of calls of the safe methods of a `stride_zip` of a
slice iterator.
-/
namespace Faster
open Res SIMDSized SIMDIterable SIMDIterator

section
variable {α : Type} [Packable α] {w : Nat}

/-- The `stride_zip` made at position `b` of the iterator over `l`, with
vector `pk` kept back and the iterator now at `p`. -/
abbrev pairsAt (l : List α) (d : Vector α w) (b : Nat) (pk : Option (Vector α w)) (p : Nat) :
    StrideZip (SIMDIter (Slice α w) α w) α w := ⟨b, pk, iterAt l d p⟩

/-- The one kind of call with undefined behaviour. -/
def BadPairCall (c : Cfg) (l : List α) (w : Nat) (op : ZipOp) (p : Nat) : Prop :=
  c.debug = false ∧ op = .end_ ∧ 0 < p ∧ p < l.length ∧ l.length ≤ w

omit [Packable α] in
theorem next_outcome (c : Cfg) (l : List α) (d : Vector α w) (p : Nat)
    (hlen : l.length + w < c.usize) (hp : p < c.usize) :
    next c (iterAt l d p) = panic ∨
      ∃ r q, next c (iterAt l d p) = ok (r, iterAt l d q) ∧ q < c.usize := by
  rw [next_exact c l d p hlen hp]
  split
  · exact .inr ⟨_, _, rfl, by omega⟩
  · split
    · exact .inr ⟨_, _, rfl, hp⟩
    · split
      · exact .inl rfl
      · exact .inr ⟨_, _, rfl, hp⟩

omit [Packable α] in
theorem advance_outcome (c : Cfg) (l : List α) (d : Vector α w) (p k : Nat) (hp : p < c.usize) :
    advance c (iterAt l d p) k = panic ∨
      ∃ q, advance c (iterAt l d p) k = ok (iterAt l d q) ∧ q < c.usize := by
  rw [advance_exact]
  split
  · exact .inr ⟨_, rfl, by omega⟩
  · split
    · exact .inl rfl
    · exact .inr ⟨_, rfl, Nat.mod_lt _ (by omega)⟩

theorem usub_outcome (c : Cfg) (a b : Nat) : usub c a b = panic ∨ ∃ n, usub c a b = ok n := by
  unfold usub
  split
  · exact .inr ⟨_, rfl⟩
  · split
    · exact .inl rfl
    · exact .inr ⟨_, rfl⟩

theorem umul_outcome (c : Cfg) (a b : Nat) : umul c a b = panic ∨ ∃ n, umul c a b = ok n := by
  unfold umul
  split
  · exact .inr ⟨_, rfl⟩
  · split
    · exact .inl rfl
    · exact .inr ⟨_, rfl⟩

theorem uadd_outcome (c : Cfg) (a b : Nat) : uadd c a b = panic ∨ ∃ n, uadd c a b = ok n := by
  unfold uadd
  split
  · exact .inr ⟨_, rfl⟩
  · split
    · exact .inl rfl
    · exact .inr ⟨_, rfl⟩

theorem pairs_advance_outcome (c : Cfg) (l : List α) (d : Vector α w) (b : Nat)
    (pk : Option (Vector α w)) (p k : Nat) (hp : p < c.usize) :
    SIMDZippedIterator.advance c (pairsAt l d b pk p) k = panic ∨
      ∃ q, SIMDZippedIterator.advance c (pairsAt l d b pk p) k = ok (pairsAt l d b pk q) ∧
        q < c.usize := by
  simp only [SIMDZippedIterator.advance]
  rcases umul_outcome c 2 k with h | ⟨a, h⟩ <;> rw [h]
  · exact .inl rfl
  · simp only [ok_bind]
    rcases advance_outcome c l d p a hp with h2 | ⟨q, h2, hq⟩ <;> rw [h2]
    · exact .inl rfl
    · exact .inr ⟨q, rfl, hq⟩

/-- The three possible outcomes of one call. -/
theorem pairs_step_spec (c : Cfg) (l : List α) (d : Vector α w) (b : Nat)
    (pk : Option (Vector α w)) (p : Nat) (hlen : l.length + w < c.usize) (hp : p < c.usize)
    (op : ZipOp) :
    (op.step c (pairsAt l d b pk p) = ub ∧ BadPairCall c l w op p) ∨
    (¬ BadPairCall c l w op p ∧
      (op.step c (pairsAt l d b pk p) = panic ∨
       ∃ o pk' q, op.step c (pairsAt l d b pk p) = ok (o, pairsAt l d b pk' q) ∧
        q < c.usize)) := by
  cases op with
  | next =>
    refine .inr ⟨by simp [BadPairCall], ?_⟩
    simp only [ZipOp.step, SIMDZippedIterator.next, StrideZip.next]
    rcases next_outcome c l d p hlen hp with h | ⟨r, q, h, hq⟩ <;> rw [h]
    · exact .inl rfl
    · simp only [ok_bind]
      cases r with
      | none => exact .inr ⟨_, _, q, rfl, hq⟩
      | some v =>
        rcases next_outcome c l d q hlen hq with h2 | ⟨r, q', h2, hq'⟩ <;> simp only [h2]
        · exact .inl rfl
        · cases r with
          | none => exact .inr ⟨_, _, q', rfl, hq'⟩
          | some v => exact .inr ⟨_, _, q', rfl, hq'⟩
  | end_ =>
    simp only [ZipOp.step, SIMDZippedIterator.end_, StrideZip.end_]
    -- the inner `end` is called at `p`, or at `p + w` if a vector was left
    have inner : ∀ q, q < c.usize → ¬ (c.debug = false ∧ 0 < q ∧ q < l.length ∧ l.length ≤ w) →
        end_ c (iterAt l d q) = panic ∨
        ∃ t q', end_ c (iterAt l d q) = ok (t, iterAt l d q') ∧ q' < c.usize := by
      intro q hq hb
      rw [simdIter_end_exact (represents_slice c l) q d hlen]
      split
      · exact .inr ⟨_, _, rfl, hq⟩
      · split
        · exact .inl rfl
        · split
          · cases hd : c.debug with
            | true => exact .inl (by simp [badAccess, hd])
            | false => exact absurd ⟨hd, by omega, by omega, by omega⟩ hb
          · exact .inr ⟨_, _, rfl, by omega⟩
    rw [next_exact c l d p hlen hp]
    by_cases h1 : p + w ≤ l.length
    · rw [dif_pos h1]
      simp only [ok_bind]
      by_cases hb : c.debug = false ∧ 0 < p ∧ p < l.length ∧ l.length ≤ w
      · omega
      · refine .inr ⟨fun h => hb ⟨h.1, h.2.2⟩, ?_⟩
        rcases inner (p + w) (by omega) (by
          rintro ⟨-, h2, h3, h4⟩
          omega) with h | ⟨t, q', h, hq'⟩ <;> rw [h]
        · exact .inl rfl
        · simp only [ok_bind]
          rcases uadd_outcome c w (t.getD (SIMDIterable.dflt (iterAt l d q'), 0)).2 with h2 | ⟨m, h2⟩
          · simp only [h2, panic_bind]; exact .inl trivial
          · simp only [h2, ok_bind]
            exact .inr ⟨_, _, q', rfl, hq'⟩
    · rw [dif_neg h1]
      -- without a whole vector left the iterator does not move
      have hstay : (if p + w < c.usize then ok (none, iterAt l d p)
          else if c.debug ∨ p + w - c.usize ≤ l.length then panic else ok (none, iterAt l d p)) =
          (panic : Res (Option (Vector α w) × SIMDIter (Slice α w) α w)) ∧ l.length < p ∨
          (if p + w < c.usize then ok (none, iterAt l d p)
          else if c.debug ∨ p + w - c.usize ≤ l.length then panic else ok (none, iterAt l d p)) =
          ok ((none : Option (Vector α w)), iterAt l d p) := by
        split
        · exact .inr rfl
        · split
          · exact .inl ⟨rfl, by omega⟩
          · exact .inr rfl
      rcases hstay with ⟨h, h2⟩ | h <;> rw [h]
      · exact .inr ⟨by simp [BadPairCall]; omega, .inl rfl⟩
      · simp only [ok_bind]
        by_cases hb : c.debug = false ∧ 0 < p ∧ p < l.length ∧ l.length ≤ w
        · refine .inl ⟨?_, hb.1, rfl, hb.2⟩
          rw [simdIter_end_exact (represents_slice c l) p d hlen, if_neg (by omega), if_neg (by omega),
            if_pos (by omega)]
          simp [badAccess, hb.1]
        · refine .inr ⟨fun h => hb ⟨h.1, h.2.2⟩, ?_⟩
          rcases inner p hp hb with h | ⟨t, q', h, hq'⟩ <;> rw [h]
          · exact .inl rfl
          · simp only [ok_bind]
            cases pk with
            | some v =>
              rcases uadd_outcome c w (t.getD (SIMDIterable.dflt (iterAt l d q'), 0)).2 with h2 | ⟨m, h2⟩
              · simp only [h2, panic_bind]; exact .inl trivial
              · simp only [h2, ok_bind]
                exact .inr ⟨_, _, q', rfl, hq'⟩
            | none =>
              simp only []
              split
              · exact .inr ⟨_, _, q', rfl, hq'⟩
              · exact .inr ⟨_, _, q', rfl, hq'⟩
  | advance k =>
    refine .inr ⟨by simp [BadPairCall], ?_⟩
    simp only [ZipOp.step]
    rcases pairs_advance_outcome c l d b pk p k hp with h | ⟨q, h, hq⟩ <;> rw [h]
    · exact .inl rfl
    · exact .inr ⟨_, _, q, rfl, hq⟩
  | finalize =>
    refine .inr ⟨by simp [BadPairCall], ?_⟩
    simp only [ZipOp.step, zfinalize, SIMDZippedIterator.scalarLen, SIMDSized.scalarLen, ok_bind,
      SIMDZippedIterator.scalarPos, SIMDIterable.scalarPos]
    rcases usub_outcome c p b with h | ⟨m, h⟩ <;> rw [h]
    · exact .inl rfl
    · simp only [ok_bind]
      rcases usub_outcome c (l.length / 2) (m / 2) with h | ⟨k, h⟩ <;> rw [h]
      · exact .inl rfl
      · simp only [ok_bind]
        rcases pairs_advance_outcome c l d b pk p k hp with h | ⟨q, h, hq⟩ <;> rw [h]
        · exact .inl rfl
        · exact .inr ⟨_, _, q, rfl, hq⟩
  | len =>
    refine .inr ⟨by simp [BadPairCall], ?_⟩
    simp only [ZipOp.step, SIMDZippedIterator.len, SIMDIterable.len, SIMDSized.scalarLen, udiv, ok_bind]
    by_cases h : w = 0
    · rw [if_pos h]; exact .inl rfl
    · rw [if_neg h]; exact .inr ⟨_, _, p, rfl, hp⟩
  | scalarPos =>
    refine .inr ⟨by simp [BadPairCall], ?_⟩
    simp only [ZipOp.step, SIMDZippedIterator.scalarPos, SIMDIterable.scalarPos, ok_bind]
    rcases usub_outcome c p b with h | ⟨m, h⟩ <;> rw [h]
    · exact .inl rfl
    · exact .inr ⟨_, _, p, rfl, hp⟩
  | scalarLen =>
    exact .inr ⟨by simp [BadPairCall], .inr ⟨_, _, p, rfl, hp⟩⟩
  | vectorPos =>
    refine .inr ⟨by simp [BadPairCall], ?_⟩
    simp only [ZipOp.step, SIMDZippedIterator.vectorPos, SIMDIterable.vectorPos, udiv]
    by_cases h : w = 0
    · simp only [if_pos h]; exact .inl rfl
    · simp only [if_neg h, ok_bind]
      rcases usub_outcome c (p / w) (b / w) with h | ⟨m, h⟩ <;> rw [h]
      · exact .inl rfl
      · exact .inr ⟨_, _, p, rfl, hp⟩
  | vectorLen =>
    refine .inr ⟨by simp [BadPairCall], ?_⟩
    simp only [ZipOp.step, SIMDZippedIterator.vectorLen, SIMDSized.scalarLen, ok_bind, udiv]
    by_cases h : w = 0
    · rw [if_pos h]; exact .inl rfl
    · rw [if_neg h]; exact .inr ⟨_, _, p, rfl, hp⟩

/-- **C97 is false, exactly**: a sequence of calls has undefined behaviour if and
only if, in a release build, it calls `end` when the inner iterator is at a
position inside a slice of at most one vector and not at its start. -/
theorem C97_exact (c : Cfg) (l : List α) (d : Vector α w) (b : Nat)
    (hlen : l.length + w < c.usize) :
    ∀ (ops : List ZipOp) (pk : Option (Vector α w)) (p : Nat), p < c.usize →
    (runZip c (pairsAt l d b pk p) ops = ub ↔
      ∃ pre post os pk' q, ops = pre ++ .end_ :: post ∧
        runZip c (pairsAt l d b pk p) pre = ok (os, pairsAt l d b pk' q) ∧
        c.debug = false ∧ 0 < q ∧ q < l.length ∧ l.length ≤ w) := by
  intro ops
  induction ops with
  | nil =>
    intro pk p _
    constructor
    · intro h; cases h
    · rintro ⟨pre, post, os, pk', q, h, -⟩
      simp at h
  | cons op ops ih =>
    intro pk p hp
    have key : ∀ pre post os pk' q, op :: ops = pre ++ .end_ :: post →
        runZip c (pairsAt l d b pk p) pre = ok (os, pairsAt l d b pk' q) →
        c.debug = false → 0 < q → q < l.length → l.length ≤ w →
        (BadPairCall c l w op p) ∨ ∃ pre', pre = op :: pre' ∧ ops = pre' ++ .end_ :: post := by
      intro pre post os pk' q h1 h2 h3 h4 h5 h6
      cases pre with
      | nil =>
        simp only [List.nil_append, List.cons.injEq] at h1
        simp only [runZip, ok.injEq, Prod.mk.injEq, StrideZip.mk.injEq, SIMDIter.mk.injEq] at h2
        obtain ⟨-, -, -, h2, -⟩ := h2
        subst h2
        exact .inl ⟨h3, h1.1, h4, h5, h6⟩
      | cons a pre' =>
        simp only [List.cons_append, List.cons.injEq] at h1
        exact .inr ⟨pre', by rw [h1.1], h1.2⟩
    rcases pairs_step_spec c l d b pk p hlen hp op with ⟨h1, h2⟩ | ⟨hb, h1 | ⟨o, pk1, q1, h1, hq1⟩⟩
    · constructor
      · intro _
        obtain ⟨h3, h4, h5, h6, h7⟩ := h2
        exact ⟨[], ops, [], pk, p, by rw [h4]; rfl, rfl, h3, h5, h6, h7⟩
      · intro _
        simp only [runZip, h1, ub_bind]
    · constructor
      · intro h
        simp only [runZip, h1, panic_bind] at h
        cases h
      · rintro ⟨pre, post, os, pk', q, h3, h4, h5, h6, h7, h8⟩
        rcases key pre post os pk' q h3 h4 h5 h6 h7 h8 with h | ⟨pre', rfl, -⟩
        · exact absurd h hb
        · simp only [runZip, h1, panic_bind] at h4
          cases h4
    · have e : runZip c (pairsAt l d b pk p) (op :: ops) = ub ↔
          runZip c (pairsAt l d b pk1 q1) ops = ub := by
        simp only [runZip, h1, ok_bind]
        cases runZip c (pairsAt l d b pk1 q1) ops <;> simp
      rw [e, ih pk1 q1 hq1]
      constructor
      · rintro ⟨pre, post, os, pk', q, h3, h4, h5⟩
        exact ⟨op :: pre, post, o :: os, pk', q, by rw [h3]; rfl,
          by simp only [runZip, h1, h4, ok_bind], h5⟩
      · rintro ⟨pre, post, os, pk', q, h3, h4, h5, h6, h7, h8⟩
        rcases key pre post os pk' q h3 h4 h5 h6 h7 h8 with h | ⟨pre', rfl, h9⟩
        · exact absurd h hb
        · simp only [runZip, h1, ok_bind] at h4
          cases h10 : runZip c (pairsAt l d b pk1 q1) pre' with
          | ok r =>
            rw [h10] at h4
            simp only [ok_bind, ok.injEq, Prod.mk.injEq] at h4
            exact ⟨pre', post, r.1, pk', q, h9, by rw [h10, ← h4.2], h5, h6, h7, h8⟩
          | panic => rw [h10] at h4; cases h4
          | ub => rw [h10] at h4; cases h4
          | hang => rw [h10] at h4; cases h4

/-- **C97 is false**: skipping one pair, then calling `end`. -/
theorem C97_false : ∃ (l : List (BitVec 8)) (ops : List ZipOp),
    (do
      let z ← strideZip release64 (simdIter (w := 4) l (Vector.replicate 4 0))
      let (os, _) ← runZip release64 z ops
      ok os) = ub :=
  ⟨[1, 2, 3], [.advance 1, .end_], by decide +kernel⟩

/-- **C97**, the part which holds: sequences of calls of every length are memory
safe if the slice is longer than a vector, or `end` is not called, or the build is
a debug build. Missing: `C97_exact`. -/
theorem C97_safe_partial (c : Cfg) (l : List α) (d : Vector α w) (b : Nat)
    (pk : Option (Vector α w)) (p : Nat) (ops : List ZipOp)
    (hlen : l.length + w < c.usize) (hp : p < c.usize)
    (h : w < l.length ∨ .end_ ∉ ops ∨ c.debug = true) :
    (runZip c (pairsAt l d b pk p) ops).isSafe := by
  have h2 : runZip c (pairsAt l d b pk p) ops ≠ ub := by
    rw [ne_eq, C97_exact c l d b hlen ops pk p hp]
    rintro ⟨pre, post, os, pk', q, h3, -, h5, -, -, h8⟩
    rcases h with h | h | h
    · omega
    · rw [h3] at h; simp at h
    · rw [h5] at h; cases h
  cases h3 : runZip c (pairsAt l d b pk p) ops with
  | ub => exact absurd h3 h2
  | _ => trivial

/-! ### C98 -/

/-- What a `stride_zip` returns where an iterator over the slice of pairs returns
`o`. -/
def pairOutOf : IterOut (α × α) w → ZipOut (Vector α w × Vector α w)
  | .vec r => .vec (r.map unzipV)
  | .tail r => .tail (r.map fun q => (unzipV q.1, q.2))
  | .num n => .num n
  | _ => .unit

/-- A call after which the iterator over pairs is to be continued: not `end`. -/
def ZipOp.notEnd : ZipOp → Bool
  | .end_ => false
  | _ => true

/-- One call, while there is a whole vector of pairs for `next`. -/
theorem pairs_step_rows (c : Cfg) (l : List α) (d : Vector α w) (dp : Vector (α × α) w)
    (pk : Option (Vector α w)) (p : Nat) (op : ZipOp) (hw : 0 < w)
    (hlen : l.length + 2 * w < c.usize) (hp : 2 * p + 2 * zadvanced [op] < c.usize)
    (hop : op.notEnd = true) (hn : op = .next → p + w ≤ (pairsOf l).length) :
    op.step c (pairsAt l d 0 pk (2 * p)) =
      (op.plain.step c (iterAt (pairsOf l) dp p) >>= fun q =>
        ok (pairOutOf q.1, pairsAt l d 0 pk (2 * q.2.position))) := by
  have hL := pairsOf_length l
  have hpos : ∀ m : Nat, SIMDZippedIterator.scalarPos c (pairsAt l d 0 pk (2 * m)) = ok m := by
    intro m
    simp only [SIMDZippedIterator.scalarPos, SIMDIterable.scalarPos, ok_bind, usub_ok (Nat.zero_le _)]
    congr 1; omega
  have hsl : SIMDZippedIterator.scalarLen c (pairsAt l d 0 pk (2 * p)) = ok (l.length / 2) := rfl
  cases op with
  | next =>
    have hn := hn rfl
    have h1 : SIMDZippedIterator.next c (pairsAt l d 0 pk (2 * p)) =
        ok (some (unzipV (windowAt (pairsOf l) p w hn)), pairsAt l d 0 pk (2 * (p + w))) := by
      have := strideZip_next (represents_slice c l) d hw hlen 0 p pk
      rw [dif_pos (by omega)] at this
      rw [show 2 * p = p * 2 by omega, show 2 * (p + w) = (p + w) * 2 by omega]
      exact this
    have h2 := next_exact c (pairsOf l) dp p (by omega) (by omega)
    rw [dif_pos hn] at h2
    simp only [ZipOp.step, ZipOp.plain, IterOp.step, h1, h2, ok_bind]
    rfl
  | end_ => cases hop
  | advance k =>
    simp only [zadvanced, Nat.add_zero] at hp
    simp only [ZipOp.step, ZipOp.plain, IterOp.step, SIMDZippedIterator.advance]
    rw [umul_ok (by omega), advance_exact, if_pos (by omega)]
    simp only [ok_bind]
    rw [advance_exact, if_pos (by omega)]
    simp only [ok_bind, Nat.mul_add]
    rfl
  | finalize =>
    simp only [zadvanced] at hp
    simp only [ZipOp.step, ZipOp.plain, IterOp.step, zfinalize, hsl, hpos, ok_bind,
      finalize_exact c (pairsOf l) dp p (by omega) (by omega), SIMDZippedIterator.advance, hL]
    by_cases h : p ≤ l.length / 2
    · rw [usub_ok h, if_neg (by omega)]
      simp only [ok_bind]
      rw [umul_ok (by omega)]
      simp only [ok_bind]
      rw [advance_exact, if_pos (by omega)]
      simp only [ok_bind]
      rw [show 2 * p + 2 * (l.length / 2 - p) = 2 * (l.length / 2) by omega]
      rfl
    · unfold usub
      rw [if_neg h]
      cases hd : c.debug with
      | true => rw [if_pos rfl, if_pos ⟨rfl, by omega⟩]; rfl
      | false =>
        have hm : (c.usize + l.length / 2 - p) % c.usize = c.usize + l.length / 2 - p :=
          Nat.mod_eq_of_lt (by omega)
        simp only [Bool.false_eq_true, if_false, ok_bind, hm, false_and, umul]
        rw [if_neg (by omega), hd]
        simp only [Bool.false_eq_true, if_false, ok_bind]
        have hm2 : 2 * (c.usize + l.length / 2 - p) % c.usize =
            c.usize - 2 * (p - l.length / 2) := by
          rw [show 2 * (c.usize + l.length / 2 - p) = c.usize - 2 * (p - l.length / 2) + c.usize by omega,
            Nat.add_mod_right, Nat.mod_eq_of_lt (by omega)]
        rw [hm2, advance_exact, if_neg (by omega), hd]
        simp only [Bool.false_eq_true, if_false, ok_bind]
        rw [show 2 * p + (c.usize - 2 * (p - l.length / 2)) = 2 * (l.length / 2) + c.usize by omega,
          Nat.add_mod_right, Nat.mod_eq_of_lt (by omega)]
        rfl
  | len =>
    simp only [ZipOp.step, ZipOp.plain, IterOp.step, SIMDZippedIterator.len, SIMDIterable.len,
      SIMDSized.scalarLen, ok_bind, hL, udiv_ok hw]
    rw [Nat.div_div_eq_div_mul, Nat.div_div_eq_div_mul, Nat.mul_comm]
    rfl
  | scalarPos =>
    simp only [ZipOp.step, ZipOp.plain, IterOp.step, hpos, ok_bind, SIMDIterable.scalarPos]
    rfl
  | scalarLen =>
    simp only [ZipOp.step, ZipOp.plain, IterOp.step, hsl, ok_bind, SIMDSized.scalarLen, hL]
    rfl
  | vectorPos =>
    have hq : 2 * p / w / 2 = p / w := by
      rw [Nat.div_div_eq_div_mul, Nat.mul_comm w 2, Nat.mul_div_mul_left _ _ (by omega)]
    simp only [ZipOp.step, ZipOp.plain, IterOp.step, SIMDZippedIterator.vectorPos, ok_bind,
      SIMDIterable.vectorPos, udiv_ok hw, Nat.zero_div, usub_ok (Nat.zero_le _), Nat.sub_zero, hq]
    rfl
  | vectorLen =>
    simp only [ZipOp.step, ZipOp.plain, IterOp.step, SIMDZippedIterator.vectorLen, ok_bind, SIMDSized.scalarLen,
      SIMDIterable.vecLen, udiv_ok hw, hL]
    rfl

/-- **C98**: as long as every `next` finds a whole vector of pairs, a `stride_zip`
answers every sequence of calls other than `end` as an iterator over the slice of
consecutive pairs, with every vector of pairs split into first and second
components. Missing: a `next` with less than a vector of pairs left
(`C98_none_moves`), and `end` (C29). -/
theorem C98_pairs_partial (c : Cfg) (l : List α) (d : Vector α w) (dp : Vector (α × α) w)
    (pk : Option (Vector α w)) (hw : 0 < w) (hlen : l.length + 2 * w < c.usize) :
    ∀ (ops : List ZipOp) (p : Nat) (outs : List (IterOut (α × α) w)) (q : Nat),
    (∀ op ∈ ops, op.notEnd = true) →
    2 * max p (l.length / 2) + 2 * zadvanced ops < c.usize →
    runOps c (iterAt (pairsOf l) dp p) (ops.map ZipOp.plain) = ok (outs, iterAt (pairsOf l) dp q) →
    (∀ o ∈ outs, o ≠ .vec none) →
    runZip c (pairsAt l d 0 pk (2 * p)) ops =
      ok (outs.map pairOutOf, pairsAt l d 0 pk (2 * q)) := by
  have hL := pairsOf_length l
  intro ops
  induction ops with
  | nil =>
    intro p outs q _ _ h _
    simp only [List.map_nil, runOps, ok.injEq, Prod.mk.injEq, SIMDIter.mk.injEq] at h
    rw [← h.1, ← h.2.1]
    rfl
  | cons op ops ih =>
    intro p outs q hops hb h hne
    have hz : zadvanced (op :: ops) = zadvanced [op] + zadvanced ops := by
      cases op <;> simp [zadvanced]
    rcases step_spec c (pairsOf l) dp p (by omega) (by omega) op.plain with
      ⟨h1, -⟩ | ⟨-, h1 | ⟨o, q1, h1, hq1, hm⟩⟩
    · simp only [List.map_cons, runOps, h1, ub_bind] at h; cases h
    · simp only [List.map_cons, runOps, h1, panic_bind] at h; cases h
    · simp only [List.map_cons, runOps, h1, ok_bind] at h
      cases h2 : runOps c (iterAt (pairsOf l) dp q1) (ops.map ZipOp.plain) with
      | ok r =>
        rw [h2] at h
        simp only [ok_bind, ok.injEq, Prod.mk.injEq] at h
        obtain ⟨h3, h4⟩ := h
        rw [← h3] at hne
        have hnext : op = .next → p + w ≤ (pairsOf l).length := by
          rintro rfl
          apply Nat.le_of_not_lt
          intro hlt
          have h5 := next_exact c (pairsOf l) dp p (by omega) (by omega)
          rw [dif_neg (by omega)] at h5
          simp only [ZipOp.plain, IterOp.step] at h1
          rw [h5] at h1
          apply hne o (by simp)
          split at h1
          · simp only [ok_bind, ok.injEq, Prod.mk.injEq] at h1
            exact h1.1.symm
          · split at h1
            · cases h1
            · simp only [ok_bind, ok.injEq, Prod.mk.injEq] at h1
              exact h1.1.symm
        have h6 := pairs_step_rows c l d dp pk p op hw hlen (by omega) (hops op (by simp)) hnext
        have hq : max q1 (l.length / 2) ≤ max p (l.length / 2) + zadvanced [op] := by
          cases op with
          | advance k =>
            simp only [Moves, ZipOp.plain] at hm
            simp only [zadvanced] at hb hz ⊢
            omega
          | finalize =>
            simp only [Moves, ZipOp.plain] at hm
            omega
          | _ =>
            simp only [Moves, ZipOp.plain] at hm
            omega
        have h7 := ih q1 r.1 q (fun x hx => hops x (by simp [hx])) (by omega)
          (by rw [h2, ← h4]) (fun x hx => hne x (by simp [hx]))
        simp only [runZip, h6, h1, ok_bind, h7]
        rw [← h3]
        rfl
      | panic => rw [h2] at h; cases h
      | ub => rw [h2] at h; cases h
      | hang => rw [h2] at h; cases h

/-- **C98 is false, exactly**: `next` with at least half a vector of pairs left,
but no whole one, returns `None` and yet consumes a vector of the inner iterator;
with less left it returns `None` and does not move. -/
theorem C98_none_moves (c : Cfg) (l : List α) (d : Vector α w) (pk : Option (Vector α w)) (p : Nat)
    (hw : 0 < w) (hlen : l.length + 2 * w < c.usize) (hp : 2 * p ≤ l.length)
    (h : l.length < 2 * p + 2 * w) :
    (∀ h1 : 2 * p + w ≤ l.length,
      SIMDZippedIterator.next c (pairsAt l d 0 pk (2 * p)) =
        ok (none, pairsAt l d 0 (some (windowAt l (2 * p) w h1)) (2 * p + w)) ∧
      SIMDZippedIterator.scalarPos c (pairsAt l d 0 (some (windowAt l (2 * p) w h1)) (2 * p + w)) =
        ok (p + w / 2)) ∧
    (l.length < 2 * p + w →
      SIMDZippedIterator.next c (pairsAt l d 0 pk (2 * p)) = ok (none, pairsAt l d 0 pk (2 * p))) := by
  have hn := strideZip_next (represents_slice c l) d hw hlen 0 p pk
  rw [dif_neg (by omega)] at hn
  refine ⟨fun h1 => ⟨?_, ?_⟩, fun h1 => ?_⟩
  · simp only [show 2 * p = p * 2 by omega]
    rw [dif_pos (by omega)] at hn
    exact hn
  · simp only [SIMDZippedIterator.scalarPos, SIMDIterable.scalarPos, ok_bind, usub_ok (Nat.zero_le _)]
    congr 1; omega
  · simp only [show 2 * p = p * 2 by omega]
    rw [dif_neg (by omega), if_pos (by omega)] at hn
    exact hn

/-- **C98**: once `next` has returned `None`, it returns `None` again and does not
move any more, at every inner position inside the slice. -/
theorem C98_exhausted (c : Cfg) (l : List α) (d : Vector α w) (b : Nat) (pk : Option (Vector α w))
    (p : Nat) (hlen : l.length + 2 * w < c.usize) (hp : p ≤ l.length)
    (z' : StrideZip (SIMDIter (Slice α w) α w) α w)
    (h : SIMDZippedIterator.next c (pairsAt l d b pk p) = ok (none, z')) :
    SIMDZippedIterator.next c z' = ok (none, z') := by
  have hr := represents_slice (w := w) c l
  simp only [SIMDZippedIterator.next, StrideZip.next] at h
  by_cases h1 : p + w ≤ l.length
  · rw [simdIter_next_some hr h1 (by omega)] at h
    simp only [ok_bind] at h
    by_cases h2 : p + w + w ≤ l.length
    · rw [simdIter_next_some hr h2 (by omega)] at h
      simp only [ok_bind, ok.injEq, Prod.mk.injEq, reduceCtorEq, false_and] at h
    · have e := simdIter_next_none hr (d := d) (p := p + w) (by omega) (by omega)
      rw [e] at h
      simp only [ok_bind, ok.injEq, Prod.mk.injEq, true_and] at h
      rw [← h]
      simp only [SIMDZippedIterator.next, StrideZip.next, e, ok_bind]
  · have e := simdIter_next_none hr (d := d) (p := p) (by omega) (by omega)
    rw [e] at h
    simp only [ok_bind, ok.injEq, Prod.mk.injEq, true_and] at h
    rw [← h]
    simp only [SIMDZippedIterator.next, StrideZip.next, e, ok_bind]

/-- **C98**: `end` can be called twice; after a first call in the last vector of
pairs, the second one returns `None`. -/
theorem C98_end_once (c : Cfg) (l : List α) (d : Vector α w) (b : Nat) (pk : Option (Vector α w))
    (p : Nat) (hw : 0 < w) (hlen : l.length + 2 * w < c.usize) (hp : p ≤ l.length)
    (hpk : pk = none ∨ l.length < p + w)
    (r : Option ((Vector α w × Vector α w) × Nat)) (z' : StrideZip (SIMDIter (Slice α w) α w) α w)
    (h : SIMDZippedIterator.end_ c (pairsAt l d b pk p) = ok (r, z')) :
    SIMDZippedIterator.end_ c z' = ok (none, z') := by
  have hr := represents_slice (w := w) c l
  have hend : ∀ q, q ≤ l.length → ∀ t it', end_ c (iterAt l d q) = ok (t, it') →
      it' = iterAt l d l.length := by
    intro q hq t it' e
    rw [simdIter_end_exact hr q d (by omega)] at e
    split at e
    · simp only [ok.injEq, Prod.mk.injEq] at e
      rw [← e.2, show q = l.length by omega]
    · split at e
      · cases e
      · split at e
        · unfold badAccess at e
          split at e <;> cases e
        · simp only [ok.injEq, Prod.mk.injEq] at e
          exact e.2.symm
  have fin : SIMDZippedIterator.end_ c (pairsAt l d b none l.length) =
      ok (none, pairsAt l d b none l.length) := by
    have e1 := simdIter_next_none hr (d := d) (p := l.length) (by omega) (by omega)
    have e2 := simdIter_end_exact hr l.length d (by omega)
    rw [if_pos (Nat.le_refl _)] at e2
    simp only [SIMDZippedIterator.end_, StrideZip.end_, e1, e2, ok_bind, Option.getD_none,
      gt_iff_lt, Nat.lt_irrefl, if_false]
  suffices hz : z' = pairsAt l d b none l.length by rw [hz]; exact fin
  have first : ∃ v q, q ≤ l.length ∧ next c (iterAt l d p) = ok (v, iterAt l d q) ∧
      (v ≠ none → pk = none) := by
    by_cases h1 : p + w ≤ l.length
    · refine ⟨_, p + w, h1, simdIter_next_some hr h1 (by omega), fun _ => ?_⟩
      rcases hpk with h2 | h2
      · exact h2
      · omega
    · exact ⟨none, p, hp, simdIter_next_none hr (by omega) (by omega), fun h => absurd rfl h⟩
  obtain ⟨v, q, hq, e1, hv⟩ := first
  simp only [SIMDZippedIterator.end_, StrideZip.end_, e1, ok_bind] at h
  cases e2 : end_ c (iterAt l d q) with
  | ok t =>
    obtain ⟨t, it'⟩ := t
    have e3 := hend q hq t it' e2
    subst e3
    rw [e2] at h
    simp only [ok_bind] at h
    have fits : ∀ m, uadd c w (t.getD (SIMDIterable.dflt (iterAt l d l.length), 0)).2 = m →
        m = panic ∨ ∃ n, m = ok n := by
      rintro m rfl
      exact uadd_outcome c _ _
    cases v with
    | some v =>
      rw [hv (by simp)] at h
      rcases fits _ rfl with e4 | ⟨n, e4⟩
      · simp only [e4, panic_bind, reduceCtorEq] at h
      · simp only [e4, ok_bind, ok.injEq, Prod.mk.injEq] at h
        exact h.2.symm
    | none =>
      cases pk with
      | some v =>
        rcases fits _ rfl with e4 | ⟨n, e4⟩
        · simp only [e4, panic_bind, reduceCtorEq] at h
        · simp only [e4, ok_bind, ok.injEq, Prod.mk.injEq] at h
          exact h.2.symm
      | none =>
        simp only [] at h
        split at h
        · simp only [ok.injEq, Prod.mk.injEq] at h
          exact h.2.symm
        · simp only [ok.injEq, Prod.mk.injEq] at h
          exact h.2.symm
  | panic => rw [e2] at h; cases h
  | ub => rw [e2] at h; cases h
  | hang => rw [e2] at h; cases h

/-- **C98 is false**: with six elements in vectors of four lanes, `next` returns
`None` and the position becomes 2, although an iterator over the three pairs stays
at its start. -/
theorem C98_false :
    (do
      let z ← strideZip debug64 (simdIter [1#8, 2, 3, 4, 5, 6] #v[0#8, 0, 0, 0])
      let (os, _) ← runZip debug64 z [.next, .scalarPos]
      ok os) = ok [.vec none, .num 2] ∧
    (do
      let (os, _) ← runOps debug64 (simdIter (w := 4) (pairsOf [1#8, 2, 3, 4, 5, 6])
        (Vector.replicate 4 (0#8, 0#8))) [.next, .scalarPos]
      ok os) = ok [.vec none, .num 0] := by
  decide +kernel

example : (do
    let z ← strideZip release64 (simdIter [1#8, 2, 3, 4, 5, 6, 7, 8] #v[0#8, 0])
    let (os, _) ← runZip release64 z [.len, .advance 1, .next, .scalarPos, .finalize, .scalarPos]
    ok os) = ok [.num 2, .unit, .vec (some (#v[3, 5], #v[4, 6])), .num 3, .unit, .num 4] := by
  have := C98_pairs_partial release64 [1#8, 2, 3, 4, 5, 6, 7, 8] #v[0#8, 0]
    (Vector.replicate 2 (0#8, 0#8)) none (by decide) (by decide)
    [.len, .advance 1, .next, .scalarPos, .finalize, .scalarPos] 0
    [.num 2, .unit, .vec (some #v[(3, 4), (5, 6)]), .num 3, .unit, .num 4] 4 (by decide) (by decide)
    (by decide +kernel) (by decide +kernel)
  rw [strideZip_fresh]
  simp only [ok_bind]
  change (runZip release64 (pairsAt _ _ 0 none (2 * 0)) _ >>= fun q => ok q.1) = _
  rw [this]
  decide +kernel

end
end Faster
