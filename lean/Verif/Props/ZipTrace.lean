import Verif.Props.Trace
import Verif.Props.Zip
/-
C87, C88, C89: arbitrary sequences of calls of the safe methods of a zip of
slices, and of a map over it.

The collections of a zip are the columns of one list of rows. The zip is
compared with an iterator over the slice of rows.
-/
namespace Faster
open Res SIMDSized SIMDIterable SIMDIterator

/-! ### Sequences of calls -/

/-- A call of a safe method of `SIMDZippedIterator` (src/zip.rs:59-135). -/
inductive ZipOp where
  | next | end_ | advance (k : Nat) | finalize
  | len | scalarPos | scalarLen | vectorPos | vectorLen
deriving Repr, DecidableEq

/-- What a call returned; `γ` is the type of tuples of vectors. -/
inductive ZipOut (γ : Type) where
  | vec (r : Option γ)
  | tail (r : Option (γ × Nat))
  | num (n : Nat)
  | unit
deriving Repr, DecidableEq

section Run
variable {Z γ : Type} [SIMDZippedIterator Z γ]

/-- Run one call. -/
def ZipOp.step (c : Cfg) (z : Z) : ZipOp → Res (ZipOut γ × Z)
  | .next => do
    let (r, z) ← SIMDZippedIterator.next c z
    ok (.vec r, z)
  | .end_ => do
    let (r, z) ← SIMDZippedIterator.end_ c z
    ok (.tail r, z)
  | .advance k => do
    let z ← SIMDZippedIterator.advance c z k
    ok (.unit, z)
  | .finalize => do
    let z ← zfinalize c z
    ok (.unit, z)
  | .len => do ok (.num (← SIMDZippedIterator.len c z), z)
  | .scalarPos => do ok (.num (← SIMDZippedIterator.scalarPos c z), z)
  | .scalarLen => do ok (.num (← SIMDZippedIterator.scalarLen c z), z)
  | .vectorPos => do ok (.num (← SIMDZippedIterator.vectorPos c z), z)
  | .vectorLen => do ok (.num (← SIMDZippedIterator.vectorLen c z), z)

/-- Run a sequence of calls. -/
def runZip (c : Cfg) (z : Z) : List ZipOp → Res (List (ZipOut γ) × Z)
  | [] => ok ([], z)
  | op :: ops => do
    let (o, z) ← op.step c z
    let (os, z) ← runZip c z ops
    ok (o :: os, z)

end Run

/-! ### A zip is an iterator over rows -/

/-- The call of a plain iterator with the documented meaning of a call of a zip. -/
def ZipOp.plain : ZipOp → IterOp
  | .next => .next
  | .end_ => .end_
  | .advance k => .advance k
  | .finalize => .finalize
  | .len => .len
  | .scalarPos => .scalarPos
  | .scalarLen => .scalarLen
  | .vectorPos => .vectorPos
  | .vectorLen => .vectorLen

/-- The calls which do not use the number of scalars. -/
def ZipOp.exact : ZipOp → Bool
  | .finalize => false
  | .scalarLen => false
  | .vectorLen => false
  | _ => true

section Sim
variable {R α γ δ : Type} {w : Nat} [Packable α] [ZipRest R γ] [LawfulRest R γ δ w]

/-- The columns of what an iterator over rows returned. -/
def splitOut (R : Type) {γ α δ : Type} {w : Nat} [ZipRest R γ] [LawfulRest R γ δ w] :
    IterOut (α × δ) w → ZipOut (Vector α w × γ)
  | .vec r => .vec (r.map (packRow R))
  | .tail r => .tail (r.map fun q => (packRow R q.1, q.2))
  | .num n => .num n
  | _ => .unit

/-- The zip of the columns of `rows`, at position `p`. -/
abbrev zipAt (rows : List (α × δ)) (dv : Vector (α × δ) w) (r : R) (p : Nat) :
    Zip (SIMDIter (Slice α w) α w) R :=
  ⟨iterAt (rows.map Prod.fst) (dv.map Prod.fst) p, r⟩

variable {c : Cfg} {rows : List (α × δ)} {dv : Vector (α × δ) w} {r : R}

theorem zip_next_rows (hr : LawfulRest.Rep c r (rows.map Prod.snd) (dv.map Prod.snd))
    (hlen : rows.length + w < c.usize) (p : Nat) (hp : p < c.usize) :
    SIMDZippedIterator.next c (zipAt rows dv r p) =
      (next c (iterAt rows dv p) >>= fun q =>
        ok (q.1.map (packRow R), zipAt rows dv r q.2.position)) := by
  have h1 := next_exact c (rows.map Prod.fst) (dv.map Prod.fst) p (by simpa using hlen) hp
  simp only [List.length_map] at h1
  rw [next_exact c rows dv p hlen hp]
  simp only [SIMDZippedIterator.next, Zip.next, SIMDIterable.scalarPos, ok_bind, h1]
  by_cases h : p + w ≤ rows.length
  · rw [dif_pos h, dif_pos h]
    have h4 := LawfulRest.next_ok p (by simpa using h) (by simp; omega) hr
    simp only [ok_bind, h4, Option.map_some, packRow]
    rw [windowAt_map, windowAt_map]
  · rw [dif_neg h, dif_neg h]
    by_cases h2 : p + w < c.usize
    · rw [if_pos h2, if_pos h2]; rfl
    · rw [if_neg h2, if_neg h2]
      by_cases h3 : c.debug ∨ p + w - c.usize ≤ rows.length
      · rw [if_pos h3, if_pos h3]; rfl
      · rw [if_neg h3, if_neg h3]; rfl

theorem zip_end_rows (hr : LawfulRest.Rep c r (rows.map Prod.snd) (dv.map Prod.snd))
    (hlen : rows.length + w < c.usize) (p : Nat) :
    SIMDZippedIterator.end_ c (zipAt rows dv r p) =
      (end_ c (iterAt rows dv p) >>= fun q =>
        ok (q.1.map (fun t => (packRow R t.1, t.2)), zipAt rows dv r q.2.position)) := by
  have h1 := simdIter_end_exact (represents_slice c (rows.map Prod.fst)) p (dv.map Prod.fst)
    (by simpa using hlen)
  simp only [List.length_map] at h1
  rw [simdIter_end_exact (represents_slice c rows) p dv hlen]
  simp only [SIMDZippedIterator.end_, Zip.end_, SIMDIterable.scalarPos, ok_bind, h1]
  by_cases h2 : rows.length ≤ p
  · rw [if_pos h2, if_pos h2]; rfl
  · rw [if_neg h2, if_neg h2]
    by_cases h3 : w < rows.length - p
    · rw [if_pos h3, if_pos h3]; rfl
    · rw [if_neg h3, if_neg h3]
      by_cases h4 : 0 < p ∧ rows.length ≤ w
      · rw [if_pos h4, if_pos h4]
        unfold badAccess
        split <;> rfl
      · rw [if_neg h4, if_neg h4]
        have h5 := LawfulRest.end_ok p (by simp; omega) (by simp; omega) (by simp; omega)
          (by omega) hr
        simp only [List.length_map] at h5
        simp only [ok_bind, h5, Option.map_some, packRow]
        rw [← List.map_drop, ← List.map_drop, padFront_map _ _ _ (by simp; omega),
          padFront_map _ _ _ (by simp; omega)]

/-- One call. -/
theorem zip_step_rows (hr : LawfulRest.Rep c r (rows.map Prod.snd) (dv.map Prod.snd))
    (hlen : rows.length + w < c.usize) (p : Nat) (hp : p < c.usize) (op : ZipOp)
    (hx : op.exact = true) :
    op.step c (zipAt rows dv r p) =
      (op.plain.step c (iterAt rows dv p) >>= fun q =>
        ok (splitOut R q.1, zipAt rows dv r q.2.position)) := by
  cases op with
  | next =>
    simp only [ZipOp.step, ZipOp.plain, IterOp.step, zip_next_rows hr hlen p hp, bind_assoc, ok_bind]
    rfl
  | end_ =>
    simp only [ZipOp.step, ZipOp.plain, IterOp.step, zip_end_rows hr hlen p, bind_assoc, ok_bind]
    rfl
  | advance k =>
    simp only [ZipOp.step, ZipOp.plain, IterOp.step, SIMDZippedIterator.advance, advance_exact]
    split
    · rfl
    · split <;> rfl
  | len =>
    simp only [ZipOp.step, ZipOp.plain, IterOp.step, SIMDZippedIterator.len, SIMDIterable.len,
      SIMDSized.scalarLen, ok_bind, List.length_map]
    cases udiv rows.length w <;> rfl
  | scalarPos => rfl
  | vectorPos =>
    simp only [ZipOp.step, ZipOp.plain, IterOp.step, SIMDZippedIterator.vectorPos, SIMDIterable.scalarPos, SIMDIterable.vectorPos, ok_bind]
    cases udiv p w <;> rfl
  | finalize => cases hx
  | scalarLen => cases hx
  | vectorLen => cases hx

/-- **C87**: a zip answers every sequence of calls of `next`, `end`, `advance`,
`len`, `scalar_pos` and `vector_pos` as an iterator over the slice of rows, with
every vector of rows split into its columns; it panics, or has undefined
behaviour, exactly when that iterator does. Any number of collections, any
element types. Missing: `C87_false`. -/
theorem C87_rows_partial (hr : LawfulRest.Rep c r (rows.map Prod.snd) (dv.map Prod.snd))
    (hlen : rows.length + w < c.usize) :
    ∀ (ops : List ZipOp) (p : Nat), p < c.usize → (∀ op ∈ ops, op.exact = true) →
    runZip c (zipAt rows dv r p) ops =
      (runOps c (iterAt rows dv p) (ops.map ZipOp.plain) >>= fun q =>
        ok (q.1.map (splitOut R), zipAt rows dv r q.2.position)) := by
  intro ops
  induction ops with
  | nil => intro p _ _; rfl
  | cons op ops ih =>
    intro p hp hx
    have h1 := zip_step_rows hr hlen p hp op (hx op (by simp))
    simp only [runZip, h1, List.map_cons, runOps, bind_assoc, ok_bind]
    rcases step_spec c rows dv p hlen hp op.plain with ⟨h2, -⟩ | ⟨-, h2 | ⟨o, q, h2, hq, -⟩⟩
    · simp only [h2, ub_bind]
    · simp only [h2, panic_bind]
    · simp only [h2, ok_bind]
      rw [ih q hq (fun x h => hx x (by simp [h]))]
      simp only [bind_assoc, ok_bind]

end Sim

section Exact
variable {R α γ δ : Type} {w : Nat} [Packable α] [ZipRest R γ] [LawfulRest R γ δ w]
variable {c : Cfg} {rows : List (α × δ)} {dv : Vector (α × δ) w} {r : R}

omit [LawfulRest R γ δ w] in
/-- **C87**, the three other calls, exactly: they use the number of full vectors
in place of the number of rows. `finalize` moves to that position, backwards if
need be in release builds; a debug build panics instead of moving back. -/
theorem C87_finalize_exact (hw : 0 < w) (hlen : rows.length + w < c.usize) (p : Nat)
    (hp : p < c.usize) :
    (ZipOp.finalize.step c (zipAt rows dv r p) =
      if c.debug ∧ rows.length / w < p then panic
      else ok (.unit, zipAt rows dv r (rows.length / w))) ∧
    ZipOp.scalarLen.step c (zipAt rows dv r p) =
      ok (.num (rows.length / w), zipAt rows dv r p) ∧
    ZipOp.vectorLen.step c (zipAt rows dv r p) =
      ok (.num (rows.length / w / w), zipAt rows dv r p) := by
  have hl : SIMDZippedIterator.scalarLen c (zipAt rows dv r p) = ok (rows.length / w) := by
    simp only [SIMDZippedIterator.scalarLen, SIMDIterable.len, SIMDSized.scalarLen, ok_bind,
      List.length_map]
    exact udiv_ok hw
  have hle := Nat.div_le_self rows.length w
  generalize rows.length / w = L at hl hle ⊢
  refine ⟨?_, ?_, ?_⟩
  · simp only [ZipOp.step, zfinalize, hl, ok_bind, SIMDZippedIterator.scalarPos,
      SIMDIterable.scalarPos, SIMDZippedIterator.advance, advance_exact]
    by_cases h : p ≤ L
    · rw [usub_ok h, if_neg (by omega)]
      simp only [ok_bind]
      rw [if_pos (by omega), show p + (L - p) = L by omega]
      rfl
    · unfold usub
      rw [if_neg h]
      cases hd : c.debug with
      | true => rw [if_pos rfl, if_pos ⟨rfl, by omega⟩]; rfl
      | false =>
        have hm : (c.usize + L - p) % c.usize = c.usize + L - p :=
          Nat.mod_eq_of_lt (by omega)
        simp only [Bool.false_eq_true, if_false, ok_bind, hm, false_and]
        rw [if_neg (by omega),
          show p + (c.usize + L - p) = L + c.usize by omega,
          Nat.add_mod_right, Nat.mod_eq_of_lt (by omega)]
        rfl
  · simp only [ZipOp.step, hl, ok_bind]
  · have hv : SIMDZippedIterator.vectorLen c (zipAt rows dv r p) = ok (L / w) := by
      have : SIMDZippedIterator.vectorLen c (zipAt rows dv r p) =
          SIMDZippedIterator.scalarLen c (zipAt rows dv r p) >>= fun m => udiv m w := rfl
      rw [this, hl, ok_bind, udiv_ok hw]
    simp only [ZipOp.step, hv, ok_bind]

/-- The outcomes of one call: undefined behaviour exactly where the iterator over
rows has it, otherwise a panic or a new position. -/
theorem zip_step_spec (hr : LawfulRest.Rep c r (rows.map Prod.snd) (dv.map Prod.snd)) (hw : 0 < w)
    (hlen : rows.length + w < c.usize) (p : Nat) (hp : p < c.usize) (op : ZipOp) :
    (op.step c (zipAt rows dv r p) = ub ∧ BadCall c rows w op.plain p) ∨
    (¬ BadCall c rows w op.plain p ∧
      (op.step c (zipAt rows dv r p) = panic ∨
       ∃ o q, op.step c (zipAt rows dv r p) = ok (o, zipAt rows dv r q) ∧ q < c.usize)) := by
  obtain ⟨hf, h1, h2⟩ := C87_finalize_exact (r := r) (dv := dv) hw hlen p hp
  have hle := Nat.div_le_self rows.length w
  by_cases hx : op.exact = true
  · have h3 := zip_step_rows hr hlen p hp op hx
    rcases step_spec c rows dv p hlen hp op.plain with ⟨h2, hb⟩ | ⟨hb, h2 | ⟨o, q, h2, hq, -⟩⟩
    · exact .inl ⟨by rw [h3, h2]; rfl, hb⟩
    · exact .inr ⟨hb, .inl (by rw [h3, h2]; rfl)⟩
    · exact .inr ⟨hb, .inr ⟨splitOut R o, q, by rw [h3, h2]; rfl, hq⟩⟩
  · right
    cases op with
    | finalize =>
      refine ⟨by simp [BadCall, ZipOp.plain], ?_⟩
      rw [hf]
      split
      · exact .inl rfl
      · exact .inr ⟨_, _, rfl, by omega⟩
    | scalarLen => exact ⟨by simp [BadCall, ZipOp.plain], .inr ⟨_, p, h1, hp⟩⟩
    | vectorLen => exact ⟨by simp [BadCall, ZipOp.plain], .inr ⟨_, p, h2, hp⟩⟩
    | _ => simp [ZipOp.exact] at hx

/-- **C88 is false, exactly**: a sequence of calls on a zip of slices of the same
length has undefined behaviour if and only if, in a release build, it calls `end`
at a position inside collections of at most one vector and not at their start. -/
theorem C88_exact (hr : LawfulRest.Rep c r (rows.map Prod.snd) (dv.map Prod.snd)) (hw : 0 < w)
    (hlen : rows.length + w < c.usize) :
    ∀ (ops : List ZipOp) (p : Nat), p < c.usize →
    (runZip c (zipAt rows dv r p) ops = ub ↔
      ∃ pre post os q, ops = pre ++ .end_ :: post ∧
        runZip c (zipAt rows dv r p) pre = ok (os, zipAt rows dv r q) ∧
        c.debug = false ∧ 0 < q ∧ q < rows.length ∧ rows.length ≤ w) := by
  intro ops
  induction ops with
  | nil =>
    intro p _
    constructor
    · intro h; cases h
    · rintro ⟨pre, post, os, q, h, -⟩
      simp at h
  | cons op ops ih =>
    intro p hp
    have key : ∀ pre post os q, op :: ops = pre ++ .end_ :: post →
        runZip c (zipAt rows dv r p) pre = ok (os, zipAt rows dv r q) →
        c.debug = false → 0 < q → q < rows.length → rows.length ≤ w →
        (BadCall c rows w op.plain p) ∨ ∃ pre', pre = op :: pre' ∧ ops = pre' ++ .end_ :: post := by
      intro pre post os q h1 h2 h3 h4 h5 h6
      cases pre with
      | nil =>
        simp only [List.nil_append, List.cons.injEq] at h1
        simp only [runZip, ok.injEq, Prod.mk.injEq, Zip.mk.injEq, SIMDIter.mk.injEq] at h2
        obtain ⟨-, ⟨h2, -⟩, -⟩ := h2
        subst h2
        exact .inl ⟨h3, by rw [h1.1]; rfl, h4, h5, h6⟩
      | cons a pre' =>
        simp only [List.cons_append, List.cons.injEq] at h1
        exact .inr ⟨pre', by rw [h1.1], h1.2⟩
    rcases zip_step_spec hr hw hlen p hp op with ⟨h1, h2⟩ | ⟨hb, h1 | ⟨o, q1, h1, hq1⟩⟩
    · constructor
      · intro _
        obtain ⟨h3, h4, h5, h6, h7⟩ := h2
        have h8 : op = .end_ := by cases op <;> first | rfl | cases h4
        exact ⟨[], ops, [], p, by rw [h8]; rfl, rfl, h3, h5, h6, h7⟩
      · intro _
        simp only [runZip, h1, ub_bind]
    · constructor
      · intro h
        simp only [runZip, h1, panic_bind] at h
        cases h
      · rintro ⟨pre, post, os, q, h3, h4, h5, h6, h7, h8⟩
        rcases key pre post os q h3 h4 h5 h6 h7 h8 with h | ⟨pre', rfl, -⟩
        · exact absurd h hb
        · simp only [runZip, h1, panic_bind] at h4
          cases h4
    · have e : runZip c (zipAt rows dv r p) (op :: ops) = ub ↔
          runZip c (zipAt rows dv r q1) ops = ub := by
        simp only [runZip, h1, ok_bind]
        cases runZip c (zipAt rows dv r q1) ops <;> simp
      rw [e, ih q1 hq1]
      constructor
      · rintro ⟨pre, post, os, q, h3, h4, h5⟩
        exact ⟨op :: pre, post, o :: os, q, by rw [h3]; rfl, by simp only [runZip, h1, h4, ok_bind], h5⟩
      · rintro ⟨pre, post, os, q, h3, h4, h5, h6, h7, h8⟩
        rcases key pre post os q h3 h4 h5 h6 h7 h8 with h | ⟨pre', rfl, h9⟩
        · exact absurd h hb
        · simp only [runZip, h1, ok_bind] at h4
          cases h10 : runZip c (zipAt rows dv r q1) pre' with
          | ok t =>
            rw [h10] at h4
            simp only [ok_bind, ok.injEq, Prod.mk.injEq] at h4
            exact ⟨pre', post, t.1, q, h9, by rw [h10, ← h4.2], h5, h6, h7, h8⟩
          | panic => rw [h10] at h4; cases h4
          | ub => rw [h10] at h4; cases h4
          | hang => rw [h10] at h4; cases h4

/-- No sequence of calls on a zip hangs. -/
theorem runZip_ne_hang (hr : LawfulRest.Rep c r (rows.map Prod.snd) (dv.map Prod.snd)) (hw : 0 < w)
    (hlen : rows.length + w < c.usize) :
    ∀ (ops : List ZipOp) (p : Nat), p < c.usize → runZip c (zipAt rows dv r p) ops ≠ hang := by
  intro ops
  induction ops with
  | nil => intro p _ h; cases h
  | cons op ops ih =>
    intro p hp h
    rcases zip_step_spec hr hw hlen p hp op with ⟨h1, -⟩ | ⟨-, h1 | ⟨o, q1, h1, hq1⟩⟩
    · simp only [runZip, h1, ub_bind] at h; cases h
    · simp only [runZip, h1, panic_bind] at h; cases h
    · simp only [runZip, h1, ok_bind] at h
      have := ih q1 hq1
      cases h2 : runZip c (zipAt rows dv r q1) ops <;> rw [h2] at h this <;>
        first | exact this rfl | cases h

/-- **C88**, the part which holds: sequences of calls of every length are memory
safe if the collections are longer than a vector, or `end` is not called, or the
build is a debug build. Missing: `C88_exact`. -/
theorem C88_safe_partial (hr : LawfulRest.Rep c r (rows.map Prod.snd) (dv.map Prod.snd))
    (hw : 0 < w) (hlen : rows.length + w < c.usize) (ops : List ZipOp) (p : Nat) (hp : p < c.usize)
    (h : w < rows.length ∨ .end_ ∉ ops ∨ c.debug = true) :
    (runZip c (zipAt rows dv r p) ops).isSafe := by
  have h2 : runZip c (zipAt rows dv r p) ops ≠ ub := by
    rw [ne_eq, C88_exact hr hw hlen ops p hp]
    rintro ⟨pre, post, os, q, h3, -, h5, -, -, h8⟩
    rcases h with h | h | h
    · omega
    · rw [h3] at h; simp at h
    · rw [h5] at h; cases h
  cases h3 : runZip c (zipAt rows dv r p) ops with
  | ub => exact absurd h3 h2
  | _ => trivial


/-! ### Order -/

/-- An answer which is not that of a scalar view; zips have none. -/
def IterOut.notElem {α : Type} {w : Nat} : IterOut α w → Bool
  | .elem _ => false
  | _ => true

omit [Packable α] [ZipRest R γ] [LawfulRest R γ δ w] in
theorem plain_notElem (op : ZipOp) (it it' : SIMDIter (Slice (α × δ) w) (α × δ) w)
    (o : IterOut (α × δ) w) (h : op.plain.step c it = ok (o, it')) : o.notElem = true := by
  cases op <;> simp only [ZipOp.plain, IterOp.step] at h
  case next => cases h1 : SIMDIterable.next c it <;> rw [h1] at h <;> simp at h; rw [← h.1]; rfl
  case end_ => cases h1 : SIMDIterator.end_ c it <;> rw [h1] at h <;> simp at h; rw [← h.1]; rfl
  case advance k =>
    cases h1 : SIMDIterable.advance c it k <;> rw [h1] at h <;> simp at h; rw [← h.1]; rfl
  case finalize => cases h1 : Faster.finalize c it <;> rw [h1] at h <;> simp at h; rw [← h.1]; rfl
  case len => cases h1 : SIMDIterable.len c it <;> rw [h1] at h <;> simp at h; rw [← h.1]; rfl
  case scalarPos =>
    cases h1 : SIMDIterable.scalarPos c it <;> rw [h1] at h <;> simp at h; rw [← h.1]; rfl
  case scalarLen =>
    cases h1 : SIMDSized.scalarLen c it <;> rw [h1] at h <;> simp at h; rw [← h.1]; rfl
  case vectorPos =>
    cases h1 : SIMDIterable.vectorPos c it <;> rw [h1] at h <;> simp at h; rw [← h.1]; rfl
  case vectorLen =>
    cases h1 : SIMDIterable.vecLen c it <;> rw [h1] at h <;> simp at h; rw [← h.1]; rfl

/-- What a call other than `finalize` which returns hands out. -/
theorem zip_step_moves (hr : LawfulRest.Rep c r (rows.map Prod.snd) (dv.map Prod.snd)) (hw : 0 < w)
    (hlen : rows.length + w < c.usize) (p : Nat) (hp : p < c.usize) (op : ZipOp)
    (hx : op ≠ .finalize) {o : ZipOut (Vector α w × γ)} {z : Zip (SIMDIter (Slice α w) α w) R}
    (h : op.step c (zipAt rows dv r p) = ok (o, z)) :
    ∃ ro q, o = splitOut R ro ∧ ro.notElem = true ∧ z = zipAt rows dv r q ∧ q < c.usize ∧
      Moves c rows op.plain p ro.delivered q := by
  obtain ⟨-, h1, h2⟩ := C87_finalize_exact (r := r) (dv := dv) hw hlen p hp
  have hstay : ∀ n, (IterOut.num n : IterOut (α × δ) w).delivered = (rows.take p).drop p ∧ p ≤ p ∧
      (p < p → p ≤ rows.length) := by
    intro n
    refine ⟨?_, Nat.le_refl _, fun h => absurd h (Nat.lt_irrefl _)⟩
    rw [List.drop_eq_nil_of_le (by simp; omega)]
    rfl
  by_cases he : op.exact = true
  · have h3 := zip_step_rows hr hlen p hp op he
    rcases step_spec c rows dv p hlen hp op.plain with ⟨h2, -⟩ | ⟨-, h2 | ⟨o', q, h2, hq, hm⟩⟩
    · rw [h3, h2] at h; cases h
    · rw [h3, h2] at h; cases h
    · rw [h3, h2] at h
      simp only [ok_bind, ok.injEq, Prod.mk.injEq] at h
      exact ⟨o', q, h.1.symm, plain_notElem op _ _ o' h2, h.2.symm, hq, hm⟩
  · cases op with
    | finalize => exact absurd rfl hx
    | scalarLen =>
      rw [h1] at h
      simp only [ok.injEq, Prod.mk.injEq] at h
      exact ⟨.num _, p, h.1.symm, rfl, h.2.symm, hp, hstay _⟩
    | vectorLen =>
      rw [h2] at h
      simp only [ok.injEq, Prod.mk.injEq] at h
      exact ⟨.num _, p, h.1.symm, rfl, h.2.symm, hp, hstay _⟩
    | _ => simp [ZipOp.exact] at he

theorem runZip_cons_ok (hr : LawfulRest.Rep c r (rows.map Prod.snd) (dv.map Prod.snd)) (hw : 0 < w)
    (hlen : rows.length + w < c.usize) {p : Nat} (hp : p < c.usize) {op : ZipOp} {ops : List ZipOp}
    (hx : op ≠ .finalize) {os : List (ZipOut (Vector α w × γ))}
    {z : Zip (SIMDIter (Slice α w) α w) R}
    (h : runZip c (zipAt rows dv r p) (op :: ops) = ok (os, z)) :
    ∃ ro os' q, os = splitOut R ro :: os' ∧ ro.notElem = true ∧ q < c.usize ∧
      Moves c rows op.plain p ro.delivered q ∧ runZip c (zipAt rows dv r q) ops = ok (os', z) := by
  simp only [runZip] at h
  cases h1 : op.step c (zipAt rows dv r p) with
  | ok t =>
    obtain ⟨o, z1⟩ := t
    obtain ⟨ro, q, rfl, hne, rfl, hq, hm⟩ := zip_step_moves hr hw hlen p hp op hx h1
    rw [h1] at h
    simp only [ok_bind] at h
    cases h2 : runZip c (zipAt rows dv r q) ops with
    | ok t =>
      rw [h2] at h
      simp only [ok_bind, ok.injEq, Prod.mk.injEq] at h
      exact ⟨ro, t.1, q, h.1.symm, hne, hq, hm, by rw [← h.2]; exact h2⟩
    | panic => rw [h2] at h; cases h
    | ub => rw [h2] at h; cases h
    | hang => rw [h2] at h; cases h
  | panic => rw [h1] at h; cases h
  | ub => rw [h1] at h; cases h
  | hang => rw [h1] at h; cases h

/-- The sum of the amounts of all `advance` calls. -/
def zadvanced : List ZipOp → Nat
  | [] => 0
  | .advance k :: ops => k + zadvanced ops
  | _ :: ops => zadvanced ops

/-- **C89**, any number of collections: the rows handed out are rows in their
order, each at most once, whatever calls other than `finalize` are made, as long
as `advance` does not overflow. The answers are the columns of vectors of rows
`ros`. Missing: `C89_false`. -/
theorem C89_in_order_partial (hr : LawfulRest.Rep c r (rows.map Prod.snd) (dv.map Prod.snd))
    (hw : 0 < w) (hlen : rows.length + w < c.usize) :
    ∀ (ops : List ZipOp) (p : Nat) (os : List (ZipOut (Vector α w × γ)))
      (z : Zip (SIMDIter (Slice α w) α w) R), p < c.usize →
    (c.debug = true ∨ max p rows.length + zadvanced ops < c.usize) → .finalize ∉ ops →
    runZip c (zipAt rows dv r p) ops = ok (os, z) →
    ∃ ros : List (IterOut (α × δ) w), os = ros.map (splitOut R) ∧ (∀ ro ∈ ros, ro.notElem = true) ∧
      (ros.flatMap IterOut.delivered).Sublist (rows.drop p) := by
  intro ops
  induction ops with
  | nil =>
    intro p os z _ _ _ h
    simp only [runZip, ok.injEq, Prod.mk.injEq] at h
    exact ⟨[], h.1.symm, by simp, List.nil_sublist _⟩
  | cons op ops ih =>
    intro p os z hp hadv hfin h
    simp only [List.mem_cons, not_or] at hfin
    obtain ⟨ro, os', q, rfl, hne, hq, hm, hrun⟩ := runZip_cons_ok hr hw hlen hp (Ne.symm hfin.1) h
    cases op with
    | finalize => exact absurd rfl hfin.1
    | advance k =>
      obtain ⟨ho, hk⟩ := hm
      simp only [zadvanced] at hadv
      have hk : q = p + k := by
        rcases hk with hk | ⟨h1, h2, -⟩
        · exact hk
        · rcases hadv with h3 | h3
          · rw [h1] at h3; cases h3
          · omega
      subst hk
      obtain ⟨ros, rfl, hne2, hs⟩ := ih (p + k) os' z hq (hadv.imp_right (by omega)) hfin.2 hrun
      refine ⟨ro :: ros, rfl, by simpa [hne] using hne2, ?_⟩
      rw [List.flatMap_cons, ho, List.nil_append]
      refine hs.trans ?_
      rw [← List.drop_drop]
      exact List.drop_sublist _ _
    | _ =>
      obtain ⟨ho, h1, h2⟩ := hm
      simp only [zadvanced] at hadv
      obtain ⟨ros, rfl, hne2, hs⟩ := ih q os' z hq (hadv.imp_right (by omega)) hfin.2 hrun
      refine ⟨ro :: ros, rfl, by simpa [hne] using hne2, ?_⟩
      rw [List.flatMap_cons, ho]
      have e : rows.drop p = (rows.take q).drop p ++ rows.drop q := by
        have := List.take_append_drop (q - p) (rows.drop p)
        rw [List.drop_drop, Nat.add_sub_cancel' h1] at this
        rw [List.drop_take, this]
      rw [e]
      exact (List.Sublist.refl _).append hs

/-- A call which does not skip rows on request. -/
def ZipOp.keeps : ZipOp → Bool
  | .advance _ => false
  | .finalize => false
  | _ => true

/-- **C89**, any number of collections: without `advance` and `finalize`, the rows
handed out so far are exactly those before the position. -/
theorem C89_complete_from (hr : LawfulRest.Rep c r (rows.map Prod.snd) (dv.map Prod.snd))
    (hw : 0 < w) (hlen : rows.length + w < c.usize) :
    ∀ (ops : List ZipOp) (p : Nat) (os : List (ZipOut (Vector α w × γ)))
      (z : Zip (SIMDIter (Slice α w) α w) R), p ≤ rows.length → (∀ op ∈ ops, op.keeps = true) →
    runZip c (zipAt rows dv r p) ops = ok (os, z) →
    ∃ (ros : List (IterOut (α × δ) w)) (q : Nat), os = ros.map (splitOut R) ∧
      (∀ ro ∈ ros, ro.notElem = true) ∧ z = zipAt rows dv r q ∧ p ≤ q ∧ q ≤ rows.length ∧
      ros.flatMap IterOut.delivered = (rows.take q).drop p := by
  intro ops
  induction ops with
  | nil =>
    intro p os z hp _ h
    simp only [runZip, ok.injEq, Prod.mk.injEq] at h
    refine ⟨[], p, h.1.symm, by simp, h.2.symm, Nat.le_refl _, hp, ?_⟩
    rw [List.drop_eq_nil_of_le (by simp; omega)]
    rfl
  | cons op ops ih =>
    intro p os z hp hk h
    have hk1 := hk op (by simp)
    obtain ⟨ro, os', q, rfl, hne, hq, hm, hrun⟩ := runZip_cons_ok hr hw hlen (by omega)
      (by rintro rfl; cases hk1) h
    have hm' : ro.delivered = (rows.take q).drop p ∧ p ≤ q ∧ (p < q → q ≤ rows.length) := by
      cases op with
      | advance k => cases hk1
      | finalize => cases hk1
      | _ => exact hm
    obtain ⟨ho, h1, h2⟩ := hm'
    have hq2 : q ≤ rows.length := by
      by_cases h3 : p < q
      · exact h2 h3
      · omega
    obtain ⟨ros, q', rfl, hne2, e1, h3, h4, e2⟩ := ih q os' z hq2 (fun x hx => hk x (by simp [hx])) hrun
    refine ⟨ro :: ros, q', rfl, by simpa [hne] using hne2, e1, by omega, h4, ?_⟩
    rw [List.flatMap_cons, e2, ho]
    apply List.ext_getElem
    · simp; omega
    · intro i h5 h6
      rw [List.getElem_append]
      split
      · simp
      · rename_i h7
        simp only [List.length_drop, List.length_take] at h7
        simp only [List.getElem_drop, List.getElem_take, List.length_drop, List.length_take]
        congr 1
        omega

end Exact

/-! ### Maps over zips -/

section Map
variable {R α γ δ β σ : Type} {w w' : Nat} [Packable α] [Packable β] [Packable (α × δ)]
  [ZipRest R γ] [LawfulRest R γ δ w]
variable {c : Cfg} {rows : List (α × δ)} {dv : Vector (α × δ) w} {r : R}

/-- One call of a map over a zip. -/
theorem zipMap_step_rows (hr : LawfulRest.Rep c r (rows.map Prod.snd) (dv.map Prod.snd))
    (hlen : rows.length + w < c.usize) (hsz : Packable.size (α × δ) = Packable.size α)
    (f : FnMut σ (Vector α w × γ) (Vector β w')) (st : σ) (p : Nat) (hp : p < c.usize)
    (op : StreamOp) :
    op.step c (zsimdMap (zipAt rows dv r p) st f) =
      (op.step c (simdMap (iterAt rows dv p) st fun st v => f st (packRow R v)) >>= fun q =>
        ok (q.1, zsimdMap (zipAt rows dv r q.2.iter.position) q.2.st f)) := by
  cases op with
  | next =>
    have h := zip_next_rows hr hlen p hp
    simp only [StreamOp.step, SIMDIterable.next, SIMDMap.next, SIMDZipMap.next, simdMap, zsimdMap] at h ⊢
    rw [h]
    cases h1 : SIMDIter.next c (iterAt rows dv p) with
    | ok t =>
      obtain ⟨t, it⟩ := t
      cases t with
      | none => rfl
      | some v =>
        simp only [ok_bind, Option.map_some, bind_assoc]
    | _ => rfl
  | end_ =>
    have h := zip_end_rows hr hlen p
    simp only [StreamOp.step, SIMDIterator.end_, SIMDMap.end_, SIMDZipMap.end_, simdMap, zsimdMap] at h ⊢
    rw [h]
    cases h1 : blanketEnd c (iterAt rows dv p) with
    | ok t =>
      obtain ⟨t, it⟩ := t
      cases t with
      | none => rfl
      | some v =>
        simp only [ok_bind, Option.map_some, bind_assoc, SIMDZippedIterator.size, hsz]
    | _ => rfl
  | advance k =>
    simp only [StreamOp.step, SIMDIterable.advance, SIMDZippedIterator.advance, simdMap, zsimdMap,
      SIMDIter.advance, bind_assoc, ok_bind]
  | scalarPos => rfl
  | len =>
    simp only [StreamOp.step, SIMDIterable.len, SIMDZippedIterator.len, simdMap, zsimdMap,
      SIMDSized.scalarLen, ok_bind, List.length_map, bind_assoc]

/-- A map over an iterator over a slice stays one. -/
theorem map_step_at {α : Type} [Packable α] (data : List α) (d : Vector α w)
    (hlen : data.length + w < c.usize)
    (f : FnMut σ (Vector α w) (Vector β w')) (st : σ) (p : Nat) (hp : p < c.usize) (op : StreamOp)
    {o : StreamOut β w'} {m : SIMDMap (SIMDIter (Slice α w) α w) σ α w β w'}
    (h : op.step c (simdMap (iterAt data d p) st f) = ok (o, m)) :
    ∃ q st', q < c.usize ∧ m = simdMap (iterAt data d q) st' f := by
  cases op with
  | next =>
    simp only [StreamOp.step, SIMDIterable.next, SIMDMap.next, simdMap] at h
    have h1 := next_exact c data d p hlen hp
    simp only [SIMDIterable.next] at h1
    rw [h1] at h
    split at h
    · simp only [ok_bind] at h
      cases h2 : f st (windowAt data p w ‹_›) with
      | ok t =>
        rw [h2] at h
        simp only [ok_bind, ok.injEq, Prod.mk.injEq] at h
        exact ⟨p + w, t.2, by omega, h.2.symm⟩
      | _ => rw [h2] at h; cases h
    · split at h
      · simp only [ok_bind, ok.injEq, Prod.mk.injEq] at h
        exact ⟨p, st, hp, h.2.symm⟩
      · split at h
        · cases h
        · simp only [ok_bind, ok.injEq, Prod.mk.injEq] at h
          exact ⟨p, st, hp, h.2.symm⟩
  | end_ =>
    simp only [StreamOp.step, SIMDIterator.end_, SIMDMap.end_, simdMap] at h
    have h1 := simdIter_end_exact (represents_slice c data) p d hlen
    simp only [SIMDIterator.end_] at h1
    rw [h1] at h
    split at h
    · simp only [ok_bind, ok.injEq, Prod.mk.injEq] at h
      exact ⟨p, st, hp, h.2.symm⟩
    · split at h
      · cases h
      · split at h
        · unfold badAccess at h; split at h <;> cases h
        · simp only [ok_bind] at h
          generalize umul c (w - (data.length - p)) (Packable.size α) = x at h
          cases x with
          | ok x =>
            simp only [ok_bind] at h
            generalize udiv x (Packable.size β) = y at h
            cases y with
            | ok y =>
              simp only [ok_bind] at h
              cases h2 : f st (padFront d (data.drop p)) with
              | ok t =>
                rw [h2] at h
                simp only [ok_bind, ok.injEq, Prod.mk.injEq] at h
                exact ⟨data.length, t.2, by omega, h.2.symm⟩
              | _ => rw [h2] at h; cases h
            | _ => cases h
          | _ => cases h
  | advance k =>
    simp only [StreamOp.step, SIMDIterable.advance, simdMap] at h
    have h1 := advance_exact c data d p k
    simp only [SIMDIterable.advance] at h1
    rw [h1] at h
    split at h
    · simp only [ok_bind, ok.injEq, Prod.mk.injEq] at h
      exact ⟨p + k, st, by assumption, h.2.symm⟩
    · split at h
      · cases h
      · simp only [ok_bind, ok.injEq, Prod.mk.injEq] at h
        exact ⟨(p + k) % c.usize, st, Nat.mod_lt _ (by omega), h.2.symm⟩
  | scalarPos =>
    simp only [StreamOp.step, SIMDIterable.scalarPos, simdMap, ok_bind, ok.injEq, Prod.mk.injEq] at h
    exact ⟨p, st, hp, h.2.symm⟩
  | len =>
    simp only [StreamOp.step, SIMDIterable.len, simdMap, SIMDSized.scalarLen, ok_bind] at h
    cases h1 : udiv data.length w with
    | ok t =>
      rw [h1] at h
      simp only [ok_bind, ok.injEq, Prod.mk.injEq] at h
      exact ⟨p, st, hp, h.2.symm⟩
    | _ => rw [h1] at h; cases h

/-- **C90**: a map over a zip answers every sequence of calls as the map of the
same closure over an iterator over rows, with the same captured state; also if
the closure or a call panics. The number of unfilled lanes is converted with the
lane size of the first collection. -/
theorem C90_zip_map_calls (hr : LawfulRest.Rep c r (rows.map Prod.snd) (dv.map Prod.snd))
    (hlen : rows.length + w < c.usize) (hsz : Packable.size (α × δ) = Packable.size α)
    (f : FnMut σ (Vector α w × γ) (Vector β w')) :
    ∀ (ops : List StreamOp) (st : σ) (p : Nat), p < c.usize →
    runStream c (zsimdMap (zipAt rows dv r p) st f) ops =
      (runStream c (simdMap (iterAt rows dv p) st fun st v => f st (packRow R v)) ops >>= fun q =>
        ok (q.1, zsimdMap (zipAt rows dv r q.2.iter.position) q.2.st f)) := by
  intro ops
  induction ops with
  | nil => intro st p _; rfl
  | cons op ops ih =>
    intro st p hp
    simp only [runStream, zipMap_step_rows hr hlen hsz f st p hp op, bind_assoc, ok_bind]
    cases h1 : op.step c (simdMap (iterAt rows dv p) st fun st v => f st (packRow R v)) with
    | ok t =>
      obtain ⟨o, m⟩ := t
      obtain ⟨q, st', hq, rfl⟩ := map_step_at rows dv hlen _ st p hp op h1
      have := ih st' q hq
      simp only [ok_bind]
      simp only [simdMap] at this ⊢
      rw [this]
      simp only [bind_assoc, ok_bind]
    | _ => rfl

end Map

/-! ### Columns -/

section Columns
variable {α β : Type} {w : Nat}

/-- A function applied to every element of an answer. -/
def IterOut.mapElems (g : α → β) : IterOut α w → IterOut β w
  | .vec r => .vec (r.map (Vector.map g))
  | .tail r => .tail (r.map fun q => (q.1.map g, q.2))
  | .elem r => .elem (r.map g)
  | .loaded v => .loaded (v.map g)
  | .loadedScalar x => .loadedScalar (g x)
  | .num n => .num n
  | .unit => .unit

/-- One call on a slice of renamed elements. -/
theorem step_mapElems (c : Cfg) (g : α → β) (data : List α) (d : Vector α w) (p : Nat)
    (hlen : data.length + w < c.usize) (hp : p < c.usize) (op : IterOp) :
    op.step c (iterAt (data.map g) (d.map g) p) =
      (op.step c (iterAt data d p) >>= fun q =>
        ok (q.1.mapElems g, iterAt (data.map g) (d.map g) q.2.position)) := by
  cases op with
  | next =>
    have h1 := next_exact c (data.map g) (d.map g) p (by simpa using hlen) hp
    simp only [List.length_map] at h1
    simp only [IterOp.step, h1, next_exact c data d p hlen hp]
    by_cases h : p + w ≤ data.length
    · rw [dif_pos h, dif_pos h]
      simp only [ok_bind, IterOut.mapElems, Option.map_some]
      rw [windowAt_map]
    · rw [dif_neg h, dif_neg h]
      by_cases h2 : p + w < c.usize
      · rw [if_pos h2, if_pos h2]; rfl
      · rw [if_neg h2, if_neg h2]
        by_cases h3 : c.debug ∨ p + w - c.usize ≤ data.length
        · rw [if_pos h3, if_pos h3]; rfl
        · rw [if_neg h3, if_neg h3]; rfl
  | end_ =>
    have h1 := simdIter_end_exact (represents_slice c (data.map g)) p (d.map g) (by simpa using hlen)
    simp only [List.length_map] at h1
    simp only [IterOp.step, h1, simdIter_end_exact (represents_slice c data) p d hlen]
    by_cases h2 : data.length ≤ p
    · rw [if_pos h2, if_pos h2]; rfl
    · rw [if_neg h2, if_neg h2]
      by_cases h3 : w < data.length - p
      · rw [if_pos h3, if_pos h3]; rfl
      · rw [if_neg h3, if_neg h3]
        by_cases h4 : 0 < p ∧ data.length ≤ w
        · rw [if_pos h4, if_pos h4]
          unfold badAccess
          split <;> rfl
        · rw [if_neg h4, if_neg h4]
          simp only [ok_bind, IterOut.mapElems, Option.map_some]
          rw [← List.map_drop, padFront_map _ _ _ (by simp; omega)]
  | scalar =>
    simp only [IterOp.step, unpack, unpacked_next c data d p (by omega),
      unpacked_next c (data.map g) (d.map g) p (by simpa using (by omega)), ok_bind, Unpacked.pack,
      List.length_map, List.getElem?_map]
    split <;> rfl
  | advance k =>
    simp only [IterOp.step, advance_exact]
    split
    · rfl
    · split <;> rfl
  | finalize =>
    have h1 := finalize_exact c (data.map g) (d.map g) p (by simpa using hlen) hp
    simp only [List.length_map] at h1
    simp only [IterOp.step, h1, finalize_exact c data d p hlen hp]
    split <;> rfl
  | len =>
    simp only [IterOp.step, SIMDIterable.len, SIMDSized.scalarLen, ok_bind, List.length_map]
    cases udiv data.length w <;> rfl
  | scalarPos => rfl
  | scalarLen =>
    simp only [IterOp.step, SIMDSized.scalarLen, ok_bind, List.length_map]
    rfl
  | vectorLen =>
    simp only [IterOp.step, SIMDIterable.vecLen, SIMDSized.scalarLen, ok_bind, List.length_map]
    cases udiv data.length w <;> rfl
  | vectorPos =>
    simp only [IterOp.step, SIMDIterable.vectorPos, ok_bind]
    cases udiv p w <;> rfl
  | load o =>
    simp only [IterOp.step, SIMDArray.load]
    by_cases h : o + w ≤ data.length
    · rw [load_ok h, load_ok (by simpa using h)]
      simp only [ok_bind, IterOut.mapElems]
      rw [windowAt_map]
    · have key : ∀ {κ : Type} (l : List κ), l.length = data.length →
          (Packed.load l o : Res (Vector κ w)) = panic := by
        intro κ l hl
        simp only [Packed.load, sliceFrom]
        by_cases h2 : o ≤ l.length
        · simp only [if_pos h2, ok_bind, Packed.fromSlice, Faster.assert, List.length_drop]
          rw [if_neg (by simp; omega)]
          rfl
        · rw [if_neg h2]; rfl
      rw [key data rfl, key (data.map g) (by simp)]
      rfl
  | loadScalar o =>
    simp only [IterOp.step, SIMDArray.loadScalar, index, List.getElem?_map]
    cases data[o]? <;> rfl

/-- Renaming the elements of a slice renames the elements in all answers, and
changes nothing else, for every sequence of calls. -/
theorem runOps_mapElems (c : Cfg) (g : α → β) (data : List α) (d : Vector α w)
    (hlen : data.length + w < c.usize) : ∀ (ops : List IterOp) (p : Nat), p < c.usize →
    runOps c (iterAt (data.map g) (d.map g) p) ops =
      (runOps c (iterAt data d p) ops >>= fun q =>
        ok (q.1.map (IterOut.mapElems g), iterAt (data.map g) (d.map g) q.2.position)) := by
  intro ops
  induction ops with
  | nil => intro p _; rfl
  | cons op ops ih =>
    intro p hp
    simp only [runOps, step_mapElems c g data d p hlen hp op, bind_assoc, ok_bind]
    rcases step_spec c data d p hlen hp op with ⟨h2, -⟩ | ⟨-, h2 | ⟨o, q, h2, hq, -⟩⟩
    · simp only [h2, ub_bind]
    · simp only [h2, panic_bind]
    · simp only [h2, ok_bind]
      rw [ih q hq]
      simp only [bind_assoc, ok_bind, List.map_cons]

end Columns

/-! ### Two slices -/

section Two
variable {α β : Type} [Packable α] {w : Nat}

/-- The answer of a zip, from the answers of its two iterators to the same call. -/
def pairOut : IterOut α w → IterOut β w → ZipOut (Vector α w × Vector β w × Unit)
  | .vec (some u), .vec (some v) => .vec (some (u, v, ()))
  | .vec _, .vec _ => .vec none
  | .tail (some (u, n)), .tail (some (v, _)) => .tail (some ((u, v, ()), n))
  | .tail _, .tail _ => .tail none
  | .num n, _ => .num n
  | _, _ => .unit

omit [Packable α] in
theorem splitOut_pair (o : IterOut (α × β × Unit) w) :
    splitOut (SIMDIter (Slice β w) β w × Unit) o =
      pairOut (o.mapElems Prod.fst) (o.mapElems fun t => t.2.1) := by
  cases o with
  | vec r =>
    cases r with
    | none => rfl
    | some v =>
      simp only [splitOut, IterOut.mapElems, pairOut, Option.map_some, packRow, LawfulRest.pack,
        Vector.map_map]
      rfl
  | tail r =>
    cases r with
    | none => rfl
    | some v =>
      simp only [splitOut, IterOut.mapElems, pairOut, Option.map_some, packRow, LawfulRest.pack,
        Vector.map_map]
      rfl
  | _ => rfl

/-- Two iterators over slices of the same length, zipped; the second one is at
any position `q`. -/
abbrev zip2At (xs : List α) (ys : List β) (dx : Vector α w) (dy : Vector β w) (p q : Nat) :
    Zip (SIMDIter (Slice α w) α w) (SIMDIter (Slice β w) β w × Unit) :=
  ⟨iterAt xs dx p, (iterAt ys dy q, ())⟩

variable (c : Cfg) (xs : List α) (ys : List β) (dx : Vector α w) (dy : Vector β w) (p q : Nat)

omit [Packable α] in
theorem zip2_rows (h : xs.length = ys.length) :
    let dv := Vector.zipWith (fun a b => (a, b, ())) dx dy
    (rows2 xs ys).length = xs.length ∧ (rows2 xs ys).map Prod.fst = xs ∧
    (rows2 xs ys).map (fun t => t.2.1) = ys ∧ dv.map Prod.fst = dx ∧ dv.map (fun t => t.2.1) = dy := by
  refine ⟨by simp [rows2, h], ?_, ?_, ?_, ?_⟩
  · apply List.ext_getElem <;> simp [rows2, h]
  · apply List.ext_getElem <;> simp [rows2, h]
  · ext i hi; simp
  · ext i hi; simp

/-- **C87**, two slices: a zip answers every sequence of calls with the pairs of
the answers which the two iterators give separately, both starting at the
position of the first; it fails exactly when they do. -/
theorem C87_two_partial (h : xs.length = ys.length) (hw : 0 < w) (hlen : xs.length + w < c.usize)
    (hp : p < c.usize) (ops : List ZipOp) (hx : ∀ op ∈ ops, op.exact = true) :
    runZip c (zip2At xs ys dx dy p q) ops = (do
      let (a, it) ← runOps c (iterAt xs dx p) (ops.map ZipOp.plain)
      let (b, _) ← runOps c (iterAt ys dy p) (ops.map ZipOp.plain)
      ok (List.zipWith pairOut a b, ⟨it, (iterAt ys dy q, ())⟩)) := by
  obtain ⟨e0, e1, e2, e3, e4⟩ := zip2_rows xs ys dx dy h
  obtain ⟨-, -, h3⟩ := rows2_spec c xs ys dx dy q h hw hlen
  have key := C87_rows_partial (c := c) (rows := rows2 xs ys)
    (dv := Vector.zipWith (fun a b => (a, b, ())) dx dy) h3 (by omega) ops p hp hx
  have k1 := runOps_mapElems c Prod.fst (rows2 xs ys) (Vector.zipWith (fun a b => (a, b, ())) dx dy)
    (by omega) (ops.map ZipOp.plain) p hp
  have k2 := runOps_mapElems c (fun t => t.2.1) (rows2 xs ys)
    (Vector.zipWith (fun a b => (a, b, ())) dx dy) (by omega) (ops.map ZipOp.plain) p hp
  rw [e1, e3] at k1
  rw [e2, e4] at k2
  simp only [zipAt, e1, e3] at key
  rw [key, k1, k2]
  cases runOps c (iterAt (rows2 xs ys) (Vector.zipWith (fun a b => (a, b, ())) dx dy) p)
      (ops.map ZipOp.plain) with
  | ok t =>
    simp only [ok_bind]
    congr 2
    apply List.ext_getElem
    · simp
    · intro i h1 h2
      simp [splitOut_pair]
  | _ => rfl

set_option synthInstance.maxSize 2000 in
/-- **C87 is false**: `finalize`, documented to exhaust the iterator, leaves a zip
with rows to hand out; and `scalar_len` is not the number of scalars. -/
theorem C87_false :
    runZip debug64 (zip2At [1#8, 2, 3, 4] [5#8, 6, 7, 8] #v[0, 0] #v[0, 0] 0 0)
      [.scalarLen, .finalize, .next] =
      ok ([.num 2, .unit, .vec (some (#v[3, 4], #v[7, 8], ()))],
        zip2At [1#8, 2, 3, 4] [5#8, 6, 7, 8] #v[0, 0] #v[0, 0] 4 0) ∧
    runOps debug64 (iterAt [1#8, 2, 3, 4] #v[0, 0] 0) [.scalarLen, .finalize, .next] =
      ok ([.num 4, .unit, .vec none], iterAt [1#8, 2, 3, 4] #v[0, 0] 4) := by
  constructor <;> decide +kernel

/-- **C88**, two slices. Missing: `C88_false`. -/
theorem C88_two_partial (h : xs.length = ys.length) (hw : 0 < w) (hlen : xs.length + w < c.usize)
    (hp : p < c.usize) (ops : List ZipOp)
    (hs : w < xs.length ∨ .end_ ∉ ops ∨ c.debug = true) :
    (runZip c (zip2At xs ys dx dy p q) ops).isSafe := by
  obtain ⟨e0, e1, e2, e3, e4⟩ := zip2_rows xs ys dx dy h
  obtain ⟨-, -, h3⟩ := rows2_spec c xs ys dx dy q h hw hlen
  have := C88_safe_partial (c := c) (rows := rows2 xs ys)
    (dv := Vector.zipWith (fun a b => (a, b, ())) dx dy) h3 hw (by omega) ops p hp (by rwa [e0])
  simpa only [zipAt, e1, e3] using this

set_option synthInstance.maxSize 2000 in
/-- **C88 is false**: moving a zip of short slices by one element, then calling
`end`, writes outside a vector. -/
theorem C88_false :
    runZip release64 (zip2At [1#8, 2, 3] [4#8, 5, 6] #v[0, 0, 0, 0] #v[0, 0, 0, 0] 0 0)
      [.advance 1, .end_] = ub := by
  decide +kernel

/-- The pairs of elements which a call handed out. -/
def ZipOut.delivered : ZipOut (Vector α w × Vector β w × Unit) → List (α × β)
  | .vec (some (u, v, _)) => u.toList.zip v.toList
  | .tail (some ((u, v, _), n)) => (u.toList.zip v.toList).drop n
  | _ => []

omit [Packable α] in
theorem zip_map_pair {κ : Type} (l : List κ) (g : κ → α) (k : κ → β) :
    (l.map g).zip (l.map k) = l.map fun t => (g t, k t) := by
  apply List.ext_getElem <;> simp

omit [Packable α] in
/-- The pairs of an answer. -/
theorem splitOut_delivered (o : IterOut (α × β × Unit) w) (ho : o.notElem = true) :
    (splitOut (SIMDIter (Slice β w) β w × Unit) o).delivered =
      o.delivered.map fun t => (t.1, t.2.1) := by
  rw [splitOut_pair]
  cases o with
  | vec r =>
    cases r with
    | none => rfl
    | some v =>
      simp only [IterOut.mapElems, pairOut, ZipOut.delivered, IterOut.delivered, Option.map_some,
        Vector.toList_map, zip_map_pair]
  | tail r =>
    cases r with
    | none => rfl
    | some v =>
      simp only [IterOut.mapElems, pairOut, ZipOut.delivered, IterOut.delivered, Option.map_some,
        Vector.toList_map, zip_map_pair, List.map_drop]
  | elem r => cases ho
  | _ => rfl

omit [Packable α] in
theorem splitOuts_delivered (os : List (IterOut (α × β × Unit) w))
    (ho : ∀ o ∈ os, o.notElem = true) :
    (os.map (splitOut (SIMDIter (Slice β w) β w × Unit))).flatMap ZipOut.delivered =
      (os.flatMap IterOut.delivered).map fun t => (t.1, t.2.1) := by
  induction os with
  | nil => rfl
  | cons o os ih =>
    simp only [List.map_cons, List.flatMap_cons, List.map_append,
      splitOut_delivered o (ho o (by simp)), ih (fun x hx => ho x (by simp [hx]))]

/-- **C89**, two slices: the pairs handed out are pairs of elements at the same
index, in order, each at most once. Missing: `C89_false`. -/
theorem C89_two_in_order_partial (h : xs.length = ys.length) (hw : 0 < w)
    (hlen : xs.length + w < c.usize) (ops : List ZipOp)
    (os : List (ZipOut (Vector α w × Vector β w × Unit)))
    (z : Zip (SIMDIter (Slice α w) α w) (SIMDIter (Slice β w) β w × Unit))
    (hadv : c.debug = true ∨ xs.length + zadvanced ops < c.usize) (hf : .finalize ∉ ops)
    (hrun : runZip c (zip2At xs ys dx dy 0 q) ops = ok (os, z)) :
    (os.flatMap ZipOut.delivered).Sublist (xs.zip ys) := by
  obtain ⟨e0, e1, e2, e3, e4⟩ := zip2_rows xs ys dx dy h
  obtain ⟨-, -, h3⟩ := rows2_spec c xs ys dx dy q h hw hlen
  obtain ⟨ros, rfl, hne, hs⟩ := C89_in_order_partial (c := c) (rows := rows2 xs ys)
    (dv := Vector.zipWith (fun a b => (a, b, ())) dx dy) h3 hw (by omega) ops 0 os z (by omega)
    (hadv.imp_right (by omega)) hf (by simpa only [zipAt, e1, e3] using hrun)
  rw [splitOuts_delivered ros hne]
  have e5 : xs.zip ys = (rows2 xs ys).map fun t => (t.1, t.2.1) := by
    apply List.ext_getElem <;> simp [rows2]
  rw [e5]
  exact hs.map _

/-- **C89**, two slices: any mixture of calls other than `advance` and `finalize`
on a fresh zip after which `end` has nothing to return has handed out every pair
exactly once, in order. -/
theorem C89_two_complete (h : xs.length = ys.length) (hw : 0 < w)
    (hlen : xs.length + w < c.usize) (ops : List ZipOp)
    (os : List (ZipOut (Vector α w × Vector β w × Unit)))
    (z z' : Zip (SIMDIter (Slice α w) α w) (SIMDIter (Slice β w) β w × Unit))
    (hk : ∀ op ∈ ops, op.keeps = true)
    (hrun : runZip c (zip2At xs ys dx dy 0 q) ops = ok (os, z))
    (he : SIMDZippedIterator.end_ c z = ok (none, z')) :
    os.flatMap ZipOut.delivered = xs.zip ys := by
  obtain ⟨e0, e1, e2, e3, e4⟩ := zip2_rows xs ys dx dy h
  obtain ⟨-, -, h3⟩ := rows2_spec c xs ys dx dy q h hw hlen
  obtain ⟨ros, p', rfl, hne, rfl, -, h1, h2⟩ := C89_complete_from (c := c) (rows := rows2 xs ys)
    (dv := Vector.zipWith (fun a b => (a, b, ())) dx dy) h3 hw (by omega) ops 0 os z (by omega)
    hk (by simpa only [zipAt, e1, e3] using hrun)
  have hq : (rows2 xs ys).length ≤ p' := by
    rw [zip_end_rows h3 (by omega), simdIter_end_exact (represents_slice c _) p' _ (by omega)] at he
    by_cases h3 : (rows2 xs ys).length ≤ p'
    · exact h3
    · rw [if_neg h3] at he
      split at he
      · cases he
      · split at he
        · unfold badAccess at he; split at he <;> cases he
        · simp at he
  rw [splitOuts_delivered ros hne, h2, List.drop_zero, List.take_of_length_le hq]
  apply List.ext_getElem <;> simp [rows2]

set_option synthInstance.maxSize 2000 in
/-- **C89 is false**: in a release build, `finalize` moves a zip back, and rows are
handed out again. -/
theorem C89_false :
    (do
      let (os, _) ← runZip release64 (zip2At [1#8, 2, 3, 4] [5#8, 6, 7, 8] #v[0, 0] #v[0, 0] 0 0)
        [.next, .next, .finalize, .next]
      ok (os.flatMap ZipOut.delivered)) =
      ok [(1, 5), (2, 6), (3, 7), (4, 8), (3, 7), (4, 8)] := by
  decide +kernel

set_option synthInstance.maxSize 2000 in
example : (do
    let (os, _) ← runZip debug64 (zip2At [1#8, 2, 3] [5#16, 6, 7] #v[0, 0] #v[9, 9] 0 1)
      [.len, .next, .scalarPos, .end_, .next, .end_]
    ok os) = ok [.num 1, .vec (some (#v[1, 2], #v[5, 6], ())), .num 2,
      .tail (some ((#v[0, 3], #v[9, 7], ()), 1)), .vec none, .tail none] := by
  decide +kernel

/-- **C90**, two slices: a map over a zip of two slices is the map of the same
closure over the slice of pairs. -/
theorem C90_two {γ σ : Type} [Packable γ] {w' : Nat} [Packable (α × β × Unit)]
    (hsz : Packable.size (α × β × Unit) = Packable.size α) (h : xs.length = ys.length) (hw : 0 < w)
    (hlen : xs.length + w < c.usize) (hp : p < c.usize) (st : σ)
    (f : FnMut σ (Vector α w × Vector β w × Unit) (Vector γ w')) (ops : List StreamOp) :
    (do
      let (os, m) ← runStream c (zsimdMap (zip2At xs ys dx dy p q) st f) ops
      ok (os, m.st)) = (do
      let (os, m) ← runStream c (simdMap
        (iterAt (rows2 xs ys) (Vector.zipWith (fun a b => (a, b, ())) dx dy) p) st
        fun st v => f st (v.map Prod.fst, v.map (fun t => t.2.1), ())) ops
      ok (os, m.st)) := by
  obtain ⟨e0, e1, e2, e3, e4⟩ := zip2_rows xs ys dx dy h
  obtain ⟨-, -, h3⟩ := rows2_spec c xs ys dx dy q h hw hlen
  have key := C90_zip_map_calls (c := c) (rows := rows2 xs ys)
    (dv := Vector.zipWith (fun a b => (a, b, ())) dx dy) h3 (by omega) hsz f ops st p hp
  have e : (fun (st : σ) (v : Vector (α × β × Unit) w) =>
      f st (packRow (SIMDIter (Slice β w) β w × Unit) v)) =
      fun st v => f st (v.map Prod.fst, v.map (fun t => t.2.1), ()) := by
    funext st v
    simp only [packRow, LawfulRest.pack, Vector.map_map]
    rfl
  simp only [zipAt, e1, e3] at key
  rw [key, e]
  simp only [bind_assoc, ok_bind, zsimdMap]

set_option synthInstance.maxSize 2000 in
example : (do
    let (os, _) ← runStream debug64 (zsimdMap (zip2At [1#16, 2, 3] [5#16, 6, 7] #v[0, 0] #v[9, 9] 0 0)
      1#16 fun st (v : Vector (BitVec 16) 2 × Vector (BitVec 16) 2 × Unit) =>
        ok (Vector.zipWith (fun a b => a * b + st) v.1 v.2.1, st + 1))
      [.next, .scalarPos, .end_, .next]
    ok os) = ok ([.vec (some #v[6, 13]), .num 2, .tail (some (#v[2, 23], 1)), .vec none] :
      List (StreamOut (BitVec 16) 2)) := by
  decide +kernel

end Two
end Faster
