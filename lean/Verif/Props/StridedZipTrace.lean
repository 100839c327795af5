import Verif.Props.ZipTrace
import Verif.Props.StrideTrace
/-
C140: arbitrary sequences of calls of the safe methods of a zip whose first
iterator is a strided one.
-/
namespace Faster
open Res SIMDSized SIMDIterable SIMDIterator

/-- The amount of an `advance` call. -/
def ZipOp.amount : ZipOp → Nat
  | .advance n => n
  | _ => 0

section
variable {R α γ δ : Type} {w : Nat} [Packable α] [ZipRest R γ] [LawfulRest R γ δ w]

/-- The zip of iterator number `k` with stride `s` over `l`, at its element number
`p`, and the further iterators `r`. -/
abbrev szipAt (l : List α) (s k : Nat) (d : Vector α w) (r : R) (p : Nat) :
    Zip (PackedStride (Slice α w) α w) R := ⟨strideIt l s k d p, r⟩

/-- What a call which returns does to the position: `next` and `end` hand out the
rows from the old to the new position; `advance` moves on; `finalize` moves to the
row whose number is the number of full vectors; all other calls do not move. -/
def SzipMoves (rows : List (α × δ)) (w : Nat) (op : ZipOp) (p : Nat) (out : List (α × δ)) (q : Nat) :
    Prop :=
  match op with
  | .advance n => out = [] ∧ q = p + n
  | .finalize => out = [] ∧ q = rows.length / w
  | _ => out = (rows.take q).drop p ∧ p ≤ q ∧ (p < q → q ≤ rows.length)

/-- The outcomes of one call on a zip with a strided first iterator, for positions
up to `B`, all of which are `usize`. -/
theorem szip_step_spec {c : Cfg} {l : List α} {s k : Nat} (hk : k < s) {rows : List (α × δ)}
    {dv : Vector (α × δ) w} {r : R} (hcol : strided s k l hk = rows.map Prod.fst)
    (hr : LawfulRest.Rep c r (rows.map Prod.snd) (dv.map Prod.snd)) (B p : Nat) (hw : 0 < w)
    (hu : l.length + s * (w + 1) < c.usize) (hB : k + s * (B + w) < c.usize)
    (hn : l.length / s ≤ B) (op : ZipOp) (hp : p + op.amount ≤ B) :
    (op.step c (szipAt l s k (dv.map Prod.fst) r p) = ub ∧ BadCall c rows w op.plain p) ∨
    (¬ BadCall c rows w op.plain p ∧
      (op.step c (szipAt l s k (dv.map Prod.fst) r p) = panic ∨
       ∃ ro q, op.step c (szipAt l s k (dv.map Prod.fst) r p) =
          ok (splitOut R ro, szipAt l s k (dv.map Prod.fst) r q) ∧
        ro.notElem = true ∧ SzipMoves rows w op p ro.delivered q)) := by
  have hs : 0 < s := by omega
  have hd := stride_driver (represents_slice c l) hk (dv.map Prod.fst) hw hu
  have hrep := represents_stride (represents_slice c l) hk (k + s * p) (dv.map Prod.fst) hw hu
  have hle : ∀ q, q ≤ B + w → k + s * q < c.usize := by
    intro q hq
    have : s * q ≤ s * (B + w) := Nat.mul_le_mul_left s hq
    omega
  have hlen : rows.length = l.length / s := by
    have := congrArg List.length hcol
    rw [strided_length, List.length_map] at this
    exact this.symm
  have hdl := Nat.div_le_self l.length s
  have h1w : w + 1 ≤ s * (w + 1) := Nat.le_mul_of_pos_left _ hs
  have hpB : p ≤ B := by omega
  rw [hcol] at hd hrep
  have stay : ∀ o : IterOut (α × δ) w, o.delivered = [] →
      o.delivered = (rows.take p).drop p ∧ p ≤ p ∧ (p < p → p ≤ rows.length) := by
    intro o ho
    refine ⟨?_, Nat.le_refl _, fun h => absurd h (Nat.lt_irrefl _)⟩
    rw [ho, List.drop_eq_nil_of_le]
    simp; omega
  have hl : SIMDIterable.len c (strideIt l s k (dv.map Prod.fst) p) = ok (rows.length / w) := by
    have := hd.len p
    simpa using this
  cases op with
  | next =>
    refine .inr ⟨by simp [BadCall, ZipOp.plain], .inr ?_⟩
    by_cases hm : k + s * (p + w) < l.length
    · obtain ⟨h1, h2⟩ := (zip_next (c := c) (r := r) hd hr (by omega) p).1 hm
      refine ⟨.vec (some (windowAt _ p w h1)), p + w, ?_, rfl, ?_, by omega, fun _ => h1⟩
      · simp only [ZipOp.step, h2, ok_bind, splitOut, Option.map_some]
      · simp only [IterOut.delivered, windowAt_toList]
        rw [List.drop_take, Nat.add_sub_cancel_left]
    · have h2 : next c (strideIt l s k (dv.map Prod.fst) p) =
          ok (none, strideIt l s k (dv.map Prod.fst) p) := by
        have hb := hle (p + w) (by omega)
        rw [Nat.mul_add] at hm hb
        simp only [SIMDIterable.next, PackedStride.next]
        rw [umul_ok (by omega)]
        simp only [ok_bind]
        rw [uadd_ok (by omega)]
        simp only [ok_bind, SIMDSized.scalarLen]
        rw [if_neg (by omega)]
      refine ⟨.vec none, p, ?_, rfl, stay _ rfl⟩
      simp only [ZipOp.step, SIMDZippedIterator.next, Zip.next, h2, ok_bind, strideIt_pos c l hk _ p]
      rfl
  | end_ =>
    have hadv : p < (rows.map Prod.fst).length →
        advance c (strideIt l s k (dv.map Prod.fst) p) ((rows.map Prod.fst).length - p) =
          ok (strideIt l s k (dv.map Prod.fst) rows.length) := by
      intro hlt
      rw [List.length_map] at hlt ⊢
      rw [strideIt_advance c l _ p _ (by rw [Nat.add_sub_cancel' (by omega)]; exact hle _ (by omega)),
        Nat.add_sub_cancel' (by omega)]
    have he := blanketEnd_exact hrep (strideIt_pos c l hk _ p) hadv (by simp; omega)
    simp only [List.length_map] at he
    simp only [ZipOp.step, SIMDZippedIterator.end_, Zip.end_, strideIt_pos c l hk _ p, ok_bind,
      SIMDIterator.end_, he]
    by_cases h1 : rows.length ≤ p
    · rw [if_pos h1]
      exact .inr ⟨by simp [BadCall]; omega, .inr ⟨.tail none, p, rfl, rfl, stay _ rfl⟩⟩
    · rw [if_neg h1]
      by_cases h2 : w < rows.length - p
      · rw [if_pos h2]
        exact .inr ⟨by simp [BadCall]; omega, .inl rfl⟩
      · rw [if_neg h2]
        by_cases h3 : 0 < p ∧ rows.length ≤ w
        · rw [if_pos h3]
          cases hdb : c.debug with
          | true => exact .inr ⟨by simp [BadCall, hdb], .inl (by simp [badAccess, hdb])⟩
          | false =>
            refine .inl ⟨by simp [badAccess, hdb], hdb, rfl, h3.1, by omega, h3.2⟩
        · rw [if_neg h3]
          have h5 := LawfulRest.end_ok p (by simp; omega) (by simp; omega) (by simp; omega)
            (by omega) hr
          simp only [List.length_map] at h5
          refine .inr ⟨by simp [BadCall]; omega, .inr ⟨.tail (some (padFront dv
            (rows.drop p), w - (rows.length - p))), rows.length, ?_, rfl, ?_, by omega,
            fun _ => Nat.le_refl _⟩⟩
          · simp only [ok_bind, h5, splitOut, Option.map_some, packRow]
            rw [← List.map_drop, ← List.map_drop, padFront_map _ _ _ (by simp; omega)]
            rw [show SIMDIterable.dflt (strideIt l s k (dv.map Prod.fst) p) = dv.map Prod.fst from rfl,
              padFront_map _ _ _ (by simp; omega)]
          · have := padFront_drop dv (rows.drop p) (by rw [List.length_drop]; omega)
            rw [List.length_drop] at this
            simp only [IterOut.delivered, this, List.take_length]
  | advance n =>
    refine .inr ⟨by simp [BadCall, ZipOp.plain], .inr ⟨.unit, p + n, ?_, rfl, rfl, rfl⟩⟩
    simp only [ZipOp.amount] at hp
    simp only [ZipOp.step, SIMDZippedIterator.advance, strideIt_advance c l _ p n (hle _ (by omega)),
      ok_bind]
    rfl
  | finalize =>
    refine .inr ⟨by simp [BadCall, ZipOp.plain], ?_⟩
    have hL : rows.length / w ≤ rows.length := Nat.div_le_self _ _
    have hsl : SIMDZippedIterator.scalarLen c (szipAt l s k (dv.map Prod.fst) r p) =
        ok (rows.length / w) := hl
    simp only [ZipOp.step, zfinalize, hsl, ok_bind, SIMDZippedIterator.scalarPos,
      strideIt_pos c l hk _ p, SIMDZippedIterator.advance]
    generalize hLe : rows.length / w = L at hL
    by_cases h : p ≤ L
    · rw [usub_ok h]
      simp only [ok_bind]
      rw [strideIt_advance c l _ p _ (by rw [Nat.add_sub_cancel' h]; exact hle _ (by omega)),
        Nat.add_sub_cancel' h]
      exact .inr ⟨.unit, L, rfl, rfl, rfl, hLe.symm⟩
    · cases hdb : c.debug with
      | true => refine .inl ?_; unfold usub; rw [if_neg h]; simp [hdb]
      | false =>
        refine .inr ⟨.unit, L, ?_, rfl, rfl, hLe.symm⟩
        have h4 := hle p (by omega)
        have h5 : p ≤ s * p := Nat.le_mul_of_pos_left _ hs
        have hsub : usub c L p = ok (c.usize + L - p) := by
          unfold usub
          rw [if_neg h]
          simp only [hdb, Bool.false_eq_true, if_false]
          rw [Nat.mod_eq_of_lt (by omega)]
        rw [hsub]
        simp only [ok_bind, SIMDIterable.advance, PackedStride.advance, uadd_release hdb,
          umul_release hdb]
        have e : (k + s * p + (c.usize + L - p) * s % c.usize) % c.usize = k + s * L := by
          rw [Nat.add_mod_mod]
          have h3 := hle L (by omega)
          have : k + s * p + (c.usize + L - p) * s = k + s * L + c.usize * s := by
            rw [Nat.sub_mul, Nat.add_mul, Nat.mul_comm s p, Nat.mul_comm s]
            have : p * s ≤ c.usize * s := Nat.mul_le_mul_right s (by omega)
            omega
          rw [this, Nat.add_mul_mod_self_left, Nat.mod_eq_of_lt h3]
        rw [e]
        rfl
  | len =>
    refine .inr ⟨by simp [BadCall, ZipOp.plain], .inr ⟨.num (rows.length / w), p, ?_, rfl, stay _ rfl⟩⟩
    simp only [ZipOp.step, SIMDZippedIterator.len, hl, ok_bind]
    rfl
  | scalarPos =>
    refine .inr ⟨by simp [BadCall, ZipOp.plain], .inr ⟨.num p, p, ?_, rfl, stay _ rfl⟩⟩
    simp only [ZipOp.step, SIMDZippedIterator.scalarPos, strideIt_pos c l hk _ p, ok_bind]
    rfl
  | scalarLen =>
    refine .inr ⟨by simp [BadCall, ZipOp.plain], .inr ⟨.num (rows.length / w), p, ?_, rfl, stay _ rfl⟩⟩
    simp only [ZipOp.step, SIMDZippedIterator.scalarLen, hl, ok_bind]
    rfl
  | vectorLen =>
    refine .inr ⟨by simp [BadCall, ZipOp.plain], .inr ⟨.num (rows.length / w / w), p, ?_, rfl,
      stay _ rfl⟩⟩
    simp only [ZipOp.step, SIMDZippedIterator.vectorLen, hl, ok_bind, udiv_ok hw]
    rfl
  | vectorPos =>
    refine .inr ⟨by simp [BadCall, ZipOp.plain], .inr ⟨.num (p / w), p, ?_, rfl, stay _ rfl⟩⟩
    simp only [ZipOp.step, SIMDZippedIterator.vectorPos, strideIt_pos c l hk _ p, ok_bind, udiv_ok hw]
    rfl

/-- One call, with the bound for the calls after it. -/
theorem szip_run_cons {c : Cfg} {l : List α} {s k : Nat} (hk : k < s) {rows : List (α × δ)}
    {dv : Vector (α × δ) w} {r : R} (hcol : strided s k l hk = rows.map Prod.fst)
    (hr : LawfulRest.Rep c r (rows.map Prod.snd) (dv.map Prod.snd)) {B p : Nat} (hw : 0 < w)
    (hu : l.length + s * (w + 1) < c.usize) (hB : k + s * (B + w) < c.usize) {op : ZipOp}
    {ops : List ZipOp} (hp : max p rows.length + zadvanced (op :: ops) ≤ B) :
    (op.step c (szipAt l s k (dv.map Prod.fst) r p) = ub ∧ BadCall c rows w op.plain p) ∨
    (¬ BadCall c rows w op.plain p ∧
      (op.step c (szipAt l s k (dv.map Prod.fst) r p) = panic ∨
       ∃ ro q, op.step c (szipAt l s k (dv.map Prod.fst) r p) =
          ok (splitOut R ro, szipAt l s k (dv.map Prod.fst) r q) ∧
        ro.notElem = true ∧ SzipMoves rows w op p ro.delivered q ∧
        max q rows.length + zadvanced ops ≤ B)) := by
  have hlen : rows.length = l.length / s := by
    have := congrArg List.length hcol
    rw [strided_length, List.length_map] at this
    exact this.symm
  have ha : op.amount + zadvanced ops = zadvanced (op :: ops) := by
    cases op <;> simp [ZipOp.amount, zadvanced]
  rcases szip_step_spec hk hcol hr B p hw hu hB (by omega) op (by omega) with
    h | ⟨h1, h2 | ⟨ro, q, h2, h3, h4⟩⟩
  · exact .inl h
  · exact .inr ⟨h1, .inl h2⟩
  · refine .inr ⟨h1, .inr ⟨ro, q, h2, h3, h4, ?_⟩⟩
    have hL : rows.length / w ≤ rows.length := Nat.div_le_self _ _
    cases op with
    | advance n => obtain ⟨-, rfl⟩ := h4; simp only [ZipOp.amount] at ha; omega
    | finalize => obtain ⟨-, rfl⟩ := h4; omega
    | _ =>
      obtain ⟨-, h5, h6⟩ := h4
      by_cases h7 : p < q
      · have := h6 h7; omega
      · omega

/-- **C140 is false, exactly**, for sequences of calls whose positions do not
overflow: a sequence of calls on a zip of iterators of which the first is strided
has undefined behaviour if and only if, in a release build, it calls `end` at a
position inside at most one vector of rows and not at their start. Any number of
iterators, any strides. -/
theorem C140_exact {c : Cfg} {l : List α} {s k : Nat} (hk : k < s) {rows : List (α × δ)}
    {dv : Vector (α × δ) w} {r : R} (hcol : strided s k l hk = rows.map Prod.fst)
    (hr : LawfulRest.Rep c r (rows.map Prod.snd) (dv.map Prod.snd)) {B : Nat} (hw : 0 < w)
    (hu : l.length + s * (w + 1) < c.usize) (hB : k + s * (B + w) < c.usize) :
    ∀ (ops : List ZipOp) (p : Nat), max p rows.length + zadvanced ops ≤ B →
    (runZip c (szipAt l s k (dv.map Prod.fst) r p) ops = ub ↔
      ∃ pre post os q, ops = pre ++ .end_ :: post ∧
        runZip c (szipAt l s k (dv.map Prod.fst) r p) pre =
          ok (os, szipAt l s k (dv.map Prod.fst) r q) ∧
        c.debug = false ∧ 0 < q ∧ q < rows.length ∧ rows.length ≤ w) := by
  have hinj : ∀ p q, strideIt l s k (dv.map Prod.fst) p = strideIt l s k (dv.map Prod.fst) q →
      p = q := by
    intro p q h
    simp only [strideIt, PackedStride.mk.injEq, true_and, and_true] at h
    exact Nat.eq_of_mul_eq_mul_left (show 0 < s by omega) (by omega)
  intro ops
  induction ops with
  | nil =>
    intro p _
    constructor
    · intro h; cases h
    · rintro ⟨pre, post, os, q, h, -⟩
      simp at h
  | cons op ops ih =>
    intro p hp
    have key : ∀ pre post os q, op :: ops = pre ++ .end_ :: post →
        runZip c (szipAt l s k (dv.map Prod.fst) r p) pre =
          ok (os, szipAt l s k (dv.map Prod.fst) r q) →
        c.debug = false → 0 < q → q < rows.length → rows.length ≤ w →
        (BadCall c rows w op.plain p) ∨ ∃ pre', pre = op :: pre' ∧ ops = pre' ++ .end_ :: post := by
      intro pre post os q h1 h2 h3 h4 h5 h6
      cases pre with
      | nil =>
        simp only [List.nil_append, List.cons.injEq] at h1
        simp only [runZip, ok.injEq, Prod.mk.injEq, szipAt, Zip.mk.injEq, and_true] at h2
        have := hinj _ _ h2.2
        subst this
        exact .inl ⟨h3, by rw [h1.1]; rfl, h4, h5, h6⟩
      | cons a pre' =>
        simp only [List.cons_append, List.cons.injEq] at h1
        exact .inr ⟨pre', by rw [h1.1], h1.2⟩
    rcases szip_run_cons hk hcol hr hw hu hB hp with
      ⟨h1, h2⟩ | ⟨hb, h1 | ⟨ro, q1, h1, -, -, hq1⟩⟩
    · constructor
      · intro _
        obtain ⟨h3, h4, h5, h6, h7⟩ := h2
        have h8 : op = .end_ := by cases op <;> first | rfl | cases h4
        exact ⟨[], ops, [], p, by rw [h8]; rfl, rfl, h3, h5, h6, h7⟩
      · intro _
        simp only [runZip, h1, ub_bind]
    · constructor
      · intro h
        simp only [runZip, h1, panic_bind] at h
        cases h
      · rintro ⟨pre, post, os, q, h3, h4, h5, h6, h7, h8⟩
        rcases key pre post os q h3 h4 h5 h6 h7 h8 with h | ⟨pre', rfl, -⟩
        · exact absurd h hb
        · simp only [runZip, h1, panic_bind] at h4
          cases h4
    · have e : runZip c (szipAt l s k (dv.map Prod.fst) r p) (op :: ops) = ub ↔
          runZip c (szipAt l s k (dv.map Prod.fst) r q1) ops = ub := by
        simp only [runZip, h1, ok_bind]
        cases runZip c (szipAt l s k (dv.map Prod.fst) r q1) ops <;> simp
      rw [e, ih q1 hq1]
      constructor
      · rintro ⟨pre, post, os, q, h3, h4, h5⟩
        exact ⟨op :: pre, post, splitOut R ro :: os, q, by rw [h3]; rfl,
          by simp only [runZip, h1, h4, ok_bind], h5⟩
      · rintro ⟨pre, post, os, q, h3, h4, h5, h6, h7, h8⟩
        rcases key pre post os q h3 h4 h5 h6 h7 h8 with h | ⟨pre', rfl, h9⟩
        · exact absurd h hb
        · simp only [runZip, h1, ok_bind] at h4
          cases h10 : runZip c (szipAt l s k (dv.map Prod.fst) r q1) pre' with
          | ok t =>
            rw [h10] at h4
            simp only [ok_bind, ok.injEq, Prod.mk.injEq] at h4
            exact ⟨pre', post, t.1, q, h9, by rw [h10, ← h4.2], h5, h6, h7, h8⟩
          | panic => rw [h10] at h4; cases h4
          | ub => rw [h10] at h4; cases h4
          | hang => rw [h10] at h4; cases h4

/-- No such sequence of calls hangs. -/
theorem szip_ne_hang {c : Cfg} {l : List α} {s k : Nat} (hk : k < s) {rows : List (α × δ)}
    {dv : Vector (α × δ) w} {r : R} (hcol : strided s k l hk = rows.map Prod.fst)
    (hr : LawfulRest.Rep c r (rows.map Prod.snd) (dv.map Prod.snd)) {B : Nat} (hw : 0 < w)
    (hu : l.length + s * (w + 1) < c.usize) (hB : k + s * (B + w) < c.usize) :
    ∀ (ops : List ZipOp) (p : Nat), max p rows.length + zadvanced ops ≤ B →
    runZip c (szipAt l s k (dv.map Prod.fst) r p) ops ≠ hang := by
  intro ops
  induction ops with
  | nil => intro p _ h; cases h
  | cons op ops ih =>
    intro p hp h
    rcases szip_run_cons hk hcol hr hw hu hB hp with ⟨h1, -⟩ | ⟨-, h1 | ⟨ro, q1, h1, -, -, hq1⟩⟩
    · simp only [runZip, h1, ub_bind] at h; cases h
    · simp only [runZip, h1, panic_bind] at h; cases h
    · simp only [runZip, h1, ok_bind] at h
      have := ih q1 hq1
      cases h2 : runZip c (szipAt l s k (dv.map Prod.fst) r q1) ops <;> rw [h2] at h this <;>
        first | exact this rfl | cases h

/-- **C140**, the part which holds: such a sequence of calls is memory safe if
there is more than a vector of rows, or `end` is not called, or the build is a
debug build. Missing: `C140_exact`, and amounts which overflow in release builds
(`C140_overflow`). -/
theorem C140_safe_partial {c : Cfg} {l : List α} {s k : Nat} (hk : k < s) {rows : List (α × δ)}
    {dv : Vector (α × δ) w} {r : R} (hcol : strided s k l hk = rows.map Prod.fst)
    (hr : LawfulRest.Rep c r (rows.map Prod.snd) (dv.map Prod.snd)) {B : Nat} (hw : 0 < w)
    (hu : l.length + s * (w + 1) < c.usize) (hB : k + s * (B + w) < c.usize) (ops : List ZipOp)
    (p : Nat) (hp : max p rows.length + zadvanced ops ≤ B)
    (h : w < rows.length ∨ .end_ ∉ ops ∨ c.debug = true) :
    (runZip c (szipAt l s k (dv.map Prod.fst) r p) ops).isSafe := by
  have h2 : runZip c (szipAt l s k (dv.map Prod.fst) r p) ops ≠ ub := by
    rw [ne_eq, C140_exact hk hcol hr hw hu hB ops p hp]
    rintro ⟨pre, post, os, q, h3, -, h5, -, -, h8⟩
    rcases h with h | h | h
    · omega
    · rw [h3] at h; simp at h
    · rw [h5] at h; cases h
  cases h3 : runZip c (szipAt l s k (dv.map Prod.fst) r p) ops with
  | ub => exact absurd h3 h2
  | _ => trivial

theorem szip_cons_ok {c : Cfg} {l : List α} {s k : Nat} (hk : k < s) {rows : List (α × δ)}
    {dv : Vector (α × δ) w} {r : R} (hcol : strided s k l hk = rows.map Prod.fst)
    (hr : LawfulRest.Rep c r (rows.map Prod.snd) (dv.map Prod.snd)) {B p : Nat} (hw : 0 < w)
    (hu : l.length + s * (w + 1) < c.usize) (hB : k + s * (B + w) < c.usize) {op : ZipOp}
    {ops : List ZipOp} (hp : max p rows.length + zadvanced (op :: ops) ≤ B)
    {os : List (ZipOut (Vector α w × γ))} {z : Zip (PackedStride (Slice α w) α w) R}
    (h : runZip c (szipAt l s k (dv.map Prod.fst) r p) (op :: ops) = ok (os, z)) :
    ∃ ro os' q, os = splitOut R ro :: os' ∧ ro.notElem = true ∧ SzipMoves rows w op p ro.delivered q ∧
      max q rows.length + zadvanced ops ≤ B ∧
      runZip c (szipAt l s k (dv.map Prod.fst) r q) ops = ok (os', z) := by
  rcases szip_run_cons hk hcol hr hw hu hB hp with ⟨h1, -⟩ | ⟨-, h1 | ⟨ro, q, h1, hne, hm, hq⟩⟩
  · simp only [runZip, h1, ub_bind] at h; cases h
  · simp only [runZip, h1, panic_bind] at h; cases h
  · simp only [runZip, h1, ok_bind] at h
    cases h2 : runZip c (szipAt l s k (dv.map Prod.fst) r q) ops with
    | ok t =>
      rw [h2] at h
      simp only [ok_bind, ok.injEq, Prod.mk.injEq] at h
      exact ⟨ro, t.1, q, h.1.symm, hne, hm, hq, by rw [h2, ← h.2]⟩
    | panic => rw [h2] at h; cases h
    | ub => rw [h2] at h; cases h
    | hang => rw [h2] at h; cases h

/-- **C140**, order: the rows handed out are rows in their order, each at most
once, whatever calls other than `finalize` are made. The answers are the columns
of vectors of rows `ros`. Missing: `C140_finalize`, `C140_overflow`. -/
theorem C140_in_order_partial {c : Cfg} {l : List α} {s k : Nat} (hk : k < s)
    {rows : List (α × δ)} {dv : Vector (α × δ) w} {r : R}
    (hcol : strided s k l hk = rows.map Prod.fst)
    (hr : LawfulRest.Rep c r (rows.map Prod.snd) (dv.map Prod.snd)) {B : Nat} (hw : 0 < w)
    (hu : l.length + s * (w + 1) < c.usize) (hB : k + s * (B + w) < c.usize) :
    ∀ (ops : List ZipOp) (p : Nat) (os : List (ZipOut (Vector α w × γ)))
      (z : Zip (PackedStride (Slice α w) α w) R), max p rows.length + zadvanced ops ≤ B →
    .finalize ∉ ops → runZip c (szipAt l s k (dv.map Prod.fst) r p) ops = ok (os, z) →
    ∃ ros : List (IterOut (α × δ) w), os = ros.map (splitOut R) ∧ (∀ ro ∈ ros, ro.notElem = true) ∧
      (ros.flatMap IterOut.delivered).Sublist (rows.drop p) := by
  intro ops
  induction ops with
  | nil =>
    intro p os z _ _ h
    simp only [runZip, ok.injEq, Prod.mk.injEq] at h
    exact ⟨[], h.1.symm, by simp, List.nil_sublist _⟩
  | cons op ops ih =>
    intro p os z hp hfin h
    simp only [List.mem_cons, not_or] at hfin
    obtain ⟨ro, os', q, rfl, hne, hm, hq, hrun⟩ := szip_cons_ok hk hcol hr hw hu hB hp h
    obtain ⟨ros, rfl, hne2, hs⟩ := ih q os' z hq hfin.2 hrun
    refine ⟨ro :: ros, rfl, by simpa [hne] using hne2, ?_⟩
    rw [List.flatMap_cons]
    cases op with
    | finalize => exact absurd rfl hfin.1
    | advance n =>
      obtain ⟨ho, rfl⟩ := hm
      rw [ho, List.nil_append]
      refine hs.trans ?_
      rw [← List.drop_drop]
      exact List.drop_sublist _ _
    | _ =>
      obtain ⟨ho, h1, -⟩ := hm
      rw [ho]
      have e : rows.drop p = (rows.take q).drop p ++ rows.drop q := by
        have := List.take_append_drop (q - p) (rows.drop p)
        rw [List.drop_drop, Nat.add_sub_cancel' h1] at this
        rw [List.drop_take, this]
      rw [e]
      exact (List.Sublist.refl _).append hs

/-- `end` has nothing to return only behind the last row. -/
theorem szip_end_none {c : Cfg} {l : List α} {s k : Nat} (hk : k < s) {rows : List (α × δ)}
    {dv : Vector (α × δ) w} {r : R} (hcol : strided s k l hk = rows.map Prod.fst)
    (hr : LawfulRest.Rep c r (rows.map Prod.snd) (dv.map Prod.snd)) {B : Nat} (hw : 0 < w)
    (hu : l.length + s * (w + 1) < c.usize) (hB : k + s * (B + w) < c.usize) (p : Nat)
    (hn : rows.length ≤ B) {z : Zip (PackedStride (Slice α w) α w) R}
    (he : SIMDZippedIterator.end_ c (szipAt l s k (dv.map Prod.fst) r p) = ok (none, z)) :
    rows.length ≤ p := by
  have hs : 0 < s := by omega
  have hrep := represents_stride (represents_slice c l) hk (k + s * p) (dv.map Prod.fst) hw hu
  have hlen : rows.length = l.length / s := by
    have := congrArg List.length hcol
    rw [strided_length, List.length_map] at this
    exact this.symm
  have hdl := Nat.div_le_self l.length s
  have h1w : w + 1 ≤ s * (w + 1) := Nat.le_mul_of_pos_left _ hs
  rw [hcol] at hrep
  refine Nat.le_of_not_lt fun h1 => ?_
  have hadv : p < (rows.map Prod.fst).length →
      advance c (strideIt l s k (dv.map Prod.fst) p) ((rows.map Prod.fst).length - p) =
        ok (strideIt l s k (dv.map Prod.fst) rows.length) := by
    intro hlt
    rw [List.length_map] at hlt ⊢
    have : s * rows.length ≤ s * (B + w) := Nat.mul_le_mul_left s (by omega)
    rw [strideIt_advance c l _ p _ (by rw [Nat.add_sub_cancel' (by omega)]; omega),
      Nat.add_sub_cancel' (by omega)]
  have h2 := blanketEnd_exact hrep (strideIt_pos c l hk _ p) hadv (by simp; omega)
  simp only [List.length_map] at h2
  simp only [SIMDZippedIterator.end_, Zip.end_, strideIt_pos c l hk _ p, ok_bind,
    SIMDIterator.end_, h2] at he
  rw [if_neg (by omega)] at he
  by_cases h3 : w < rows.length - p
  · rw [if_pos h3] at he; cases he
  · rw [if_neg h3] at he
    by_cases h4 : 0 < p ∧ rows.length ≤ w
    · rw [if_pos h4] at he
      unfold badAccess at he
      split at he <;> cases he
    · rw [if_neg h4] at he
      have h5 := LawfulRest.end_ok p (by simp; omega) (by simp; omega) (by simp; omega)
        (by omega) hr
      simp only [List.length_map] at h5
      simp only [ok_bind, h5] at he
      cases he

/-- **C140**, completeness: without `advance` and `finalize`, the rows handed out
so far are exactly those before the position; if `end` then has nothing to return,
these are all rows from the first position on. -/
theorem C140_complete {c : Cfg} {l : List α} {s k : Nat} (hk : k < s)
    {rows : List (α × δ)} {dv : Vector (α × δ) w} {r : R}
    (hcol : strided s k l hk = rows.map Prod.fst)
    (hr : LawfulRest.Rep c r (rows.map Prod.snd) (dv.map Prod.snd)) {B : Nat} (hw : 0 < w)
    (hu : l.length + s * (w + 1) < c.usize) (hB : k + s * (B + w) < c.usize)
    (hn : rows.length ≤ B) :
    ∀ (ops : List ZipOp) (p : Nat) (os : List (ZipOut (Vector α w × γ)))
      (z : Zip (PackedStride (Slice α w) α w) R), p ≤ rows.length → (∀ op ∈ ops, op.keeps = true) →
    runZip c (szipAt l s k (dv.map Prod.fst) r p) ops = ok (os, z) →
    ∃ (ros : List (IterOut (α × δ) w)) (q : Nat), os = ros.map (splitOut R) ∧
      (∀ ro ∈ ros, ro.notElem = true) ∧ z = szipAt l s k (dv.map Prod.fst) r q ∧ p ≤ q ∧
      q ≤ rows.length ∧ ros.flatMap IterOut.delivered = (rows.take q).drop p ∧
      (∀ z', SIMDZippedIterator.end_ c z = ok (none, z') →
        ros.flatMap IterOut.delivered = rows.drop p) := by
  intro ops
  induction ops with
  | nil =>
    intro p os z hp _ h
    simp only [runZip, ok.injEq, Prod.mk.injEq] at h
    have e0 : ([] : List (IterOut (α × δ) w)).flatMap IterOut.delivered = (rows.take p).drop p := by
      rw [List.drop_eq_nil_of_le (by simp; omega)]
      rfl
    refine ⟨[], p, h.1.symm, by simp, h.2.symm, Nat.le_refl _, hp, e0, ?_⟩
    intro z' he
    have hr0 : rows.length ≤ p := by
      rw [← h.2] at he
      refine Nat.le_of_not_lt fun hlt => ?_
      exact Nat.not_le_of_lt hlt (szip_end_none hk hcol hr hw hu hB p (by omega) he)
    rw [e0, List.take_of_length_le hr0]
  | cons op ops ih =>
    intro p os z hp hk1 h
    have hk2 := hk1 op (by simp)
    have hz : zadvanced (op :: ops) = 0 := by
      have : ∀ ops' : List ZipOp, (∀ op ∈ ops', op.keeps = true) → zadvanced ops' = 0 := by
        intro ops' h
        induction ops' with
        | nil => rfl
        | cons a t iht =>
          have h1 := h a (by simp)
          have h2 := iht (fun x hx => h x (by simp [hx]))
          cases a <;> first | exact h2 | cases h1
      exact this _ hk1
    obtain ⟨ro, os', q, rfl, hne, hm, hq, hrun⟩ := szip_cons_ok hk hcol hr hw hu hB
      (by rw [hz]; omega) h
    have hm' : ro.delivered = (rows.take q).drop p ∧ p ≤ q ∧ (p < q → q ≤ rows.length) := by
      cases op with
      | advance k => cases hk2
      | finalize => cases hk2
      | _ => exact hm
    obtain ⟨ho, h1, h2⟩ := hm'
    have hq2 : q ≤ rows.length := by
      by_cases h3 : p < q
      · exact h2 h3
      · omega
    obtain ⟨ros, q', rfl, hne2, e1, h3, h4, e2, e3⟩ :=
      ih q os' z hq2 (fun x hx => hk1 x (by simp [hx])) hrun
    have eapp : ∀ m, q ≤ m → m ≤ rows.length →
        (rows.take q).drop p ++ (rows.take m).drop q = (rows.take m).drop p := by
      intro m hm1 hm2
      apply List.ext_getElem
      · simp; omega
      · intro i h5 h6
        rw [List.getElem_append]
        split
        · simp
        · rename_i h7
          simp only [List.length_drop, List.length_take] at h7
          simp only [List.getElem_drop, List.getElem_take, List.length_drop, List.length_take]
          congr 1
          omega
    refine ⟨ro :: ros, q', rfl, by simpa [hne] using hne2, e1, by omega, h4, ?_, ?_⟩
    · rw [List.flatMap_cons, e2, ho, eapp q' h3 h4]
    · intro z' he
      have := eapp rows.length hq2 (Nat.le_refl _)
      rw [List.take_length] at this
      rw [List.flatMap_cons, e3 z' he, ho, this]

end

/-! ### The two iterators of `stride_two` -/

/-- The pairs of consecutive elements; a last element without partner is left out. -/
def consecutivePairs {α : Type} : List α → List (α × α)
  | a :: b :: l => (a, b) :: consecutivePairs l
  | _ => []

theorem consecutivePairs_eq {α : Type} (l : List α) :
    consecutivePairs l =
      (strided 2 0 l (by omega)).zip (strided 2 1 l (by omega)) := by
  induction l using consecutivePairs.induct with
  | case1 a b l ih =>
    rw [consecutivePairs, ih]
    apply List.ext_getElem
    · simp; omega
    · intro i h1 h2
      cases i with
      | zero => simp [strided_getElem]
      | succ i => 
        simp only [List.getElem_cons_succ, List.getElem_zip, strided_getElem]
        congr 1 <;> simp [Nat.mul_add, Nat.add_comm, Nat.add_left_comm]
  | case2 l h =>
    match l, h with
    | [], _ => simp [consecutivePairs, strided]
    | [a], _ => simp [consecutivePairs, strided]
    | a :: b :: l, h => exact absurd rfl (h a b l)

section Two
variable {α : Type} [Packable α] {w : Nat}

/-- The zip of the two iterators of `stride_two`, the first at its element number `p`. -/
abbrev zipTwoAt (l : List α) (dx dy : Vector α w) (p : Nat) :
    Zip (PackedStride (Slice α w) α w) (PackedStride (Slice α w) α w × Unit) :=
  ⟨strideIt l 2 0 dx p, (strideIt l 2 1 dy 0, ())⟩

/-- `zip` of the two iterators of `stride_two` is `zipTwoAt` at the start. -/
theorem zipTwo_fresh (c : Cfg) (l : List α) (dx dy : Vector α w) (hw : 0 < w)
    (hu : l.length + 2 * (w + 1) < c.usize) :
    (let t := strideTwo (⟨l⟩ : Slice α w) (dx, dy)
    zip c t.1 (t.2, ())) = ok (zipTwoAt l dx dy 0) := by
  have h1 := (stride_driver (represents_slice c l) (show 0 < 2 by omega) dx hw hu).len 0
  have h2 := (stride_driver (represents_slice c l) (show 1 < 2 by omega) dy hw hu).len 0
  simp only [Nat.mul_zero, Nat.add_zero, strided_length] at h1 h2
  simp only [strideTwo, zip, h1, ok_bind, ZipRest.lenDiffers, h2]
  simp

theorem zipTwo_rows (c : Cfg) (l : List α) (dx dy : Vector α w) (hw : 0 < w)
    (hu : l.length + 2 * (w + 1) < c.usize) :
    let rows := rows2 (strided 2 0 l (by omega)) (strided 2 1 l (by omega))
    let dv := Vector.zipWith (fun a b => (a, b, ())) dx dy
    rows.length = l.length / 2 ∧ strided 2 0 l (by omega) = rows.map Prod.fst ∧
    dv.map Prod.fst = dx ∧
    LawfulRest.Rep c (strideIt l 2 1 dy 0, ()) (rows.map Prod.snd) (dv.map Prod.snd) := by
  have hl : (strided 2 0 l (by omega)).length = (strided 2 1 l (by omega)).length := by simp
  obtain ⟨e0, e1, e2, e3, e4⟩ := zip2_rows (strided 2 0 l (by omega)) (strided 2 1 l (by omega)) dx dy hl
  refine ⟨by rw [e0]; simp, e1.symm, e3, ?_⟩
  refine ⟨?_, trivial⟩
  simp only [List.map_map, Vector.map_map]
  have := repIter_strideAt c l (show 1 < 2 by omega) dy hw hu
  rw [show (Prod.fst ∘ Prod.snd : α × α × Unit → α) = fun t => t.2.1 from rfl, e2, e4]
  exact this

theorem splitOut_two (o : IterOut (α × α × Unit) w) :
    splitOut (PackedStride (Slice α w) α w × Unit) o = splitOut (SIMDIter (Slice α w) α w × Unit) o := by
  cases o <;> rfl

/-- **C140**, `stride_two`: no sequence of calls on a zip of its two iterators, not
overflowing positions, has undefined behaviour, if there is more than one vector
of pairs or `end` is not called or the build is a debug build. Missing:
`C140_false`, `C140_overflow`. -/
theorem C140_two_safe_partial (c : Cfg) (l : List α) (dx dy : Vector α w) (hw : 0 < w) (B p : Nat)
    (hu : l.length + 2 * (w + 1) < c.usize) (hB : 2 * (B + w) < c.usize) (ops : List ZipOp)
    (hp : max p (l.length / 2) + zadvanced ops ≤ B)
    (h : w < l.length / 2 ∨ .end_ ∉ ops ∨ c.debug = true) :
    (runZip c (zipTwoAt l dx dy p) ops).isSafe := by
  obtain ⟨e0, e1, e3, hr⟩ := zipTwo_rows c l dx dy hw hu
  have := C140_safe_partial (c := c) (show 0 < 2 by omega) e1 hr hw hu
    (by rw [Nat.zero_add]; exact hB) ops p (by rw [e0]; exact hp) (by rw [e0]; exact h)
  rw [e3] at this
  exact this

/-- **C140**, `stride_two`: the pairs handed out by any such sequence of calls
without `finalize` are pairs of consecutive elements of the slice, in order, each
at most once. -/
theorem C140_two_in_order_partial (c : Cfg) (l : List α) (dx dy : Vector α w) (hw : 0 < w) (B : Nat)
    (hu : l.length + 2 * (w + 1) < c.usize) (hB : 2 * (B + w) < c.usize) (ops : List ZipOp)
    (hp : l.length / 2 + zadvanced ops ≤ B) (hf : .finalize ∉ ops)
    (os : List (ZipOut (Vector α w × Vector α w × Unit)))
    (z : Zip (PackedStride (Slice α w) α w) (PackedStride (Slice α w) α w × Unit))
    (hrun : runZip c (zipTwoAt l dx dy 0) ops = ok (os, z)) :
    (os.flatMap ZipOut.delivered).Sublist (consecutivePairs l) := by
  obtain ⟨e0, e1, e3, hr⟩ := zipTwo_rows c l dx dy hw hu
  obtain ⟨ros, rfl, hne, hs⟩ := C140_in_order_partial (c := c) (show 0 < 2 by omega) e1 hr hw hu
    (by rw [Nat.zero_add]; exact hB) ops 0 os z (by rw [e0]; omega) hf (by rw [e3]; exact hrun)
  rw [show (splitOut (PackedStride (Slice α w) α w × Unit) : IterOut (α × α × Unit) w → _) =
    splitOut (SIMDIter (Slice α w) α w × Unit) from funext splitOut_two, splitOuts_delivered ros hne,
    consecutivePairs_eq]
  have e5 : ∀ xs ys : List α, xs.zip ys = (rows2 xs ys).map fun t => (t.1, t.2.1) := by
    intro xs ys
    apply List.ext_getElem <;> simp [rows2]
  rw [e5]
  exact hs.map _

/-- **C140**, `stride_two`: any mixture of calls other than `advance` and `finalize`
on a fresh zip after which `end` has nothing to return has handed out every pair
of consecutive elements exactly once, in order. -/
theorem C140_two_complete (c : Cfg) (l : List α) (dx dy : Vector α w) (hw : 0 < w)
    (hu : l.length + 2 * (w + 1) < c.usize) (ops : List ZipOp)
    (hk : ∀ op ∈ ops, op.keeps = true)
    (os : List (ZipOut (Vector α w × Vector α w × Unit)))
    (z z' : Zip (PackedStride (Slice α w) α w) (PackedStride (Slice α w) α w × Unit))
    (hrun : runZip c (zipTwoAt l dx dy 0) ops = ok (os, z))
    (he : SIMDZippedIterator.end_ c z = ok (none, z')) :
    os.flatMap ZipOut.delivered = consecutivePairs l := by
  obtain ⟨e0, e1, e3, hr⟩ := zipTwo_rows c l dx dy hw hu
  obtain ⟨ros, q, rfl, hne, -, -, -, -, hs⟩ := C140_complete (c := c) (show 0 < 2 by omega) e1 hr hw hu
    (B := l.length / 2) (by omega) (by rw [e0]; exact Nat.le_refl _) ops 0 os z (by omega) hk
    (by rw [e3]; exact hrun)
  rw [show (splitOut (PackedStride (Slice α w) α w × Unit) : IterOut (α × α × Unit) w → _) =
    splitOut (SIMDIter (Slice α w) α w × Unit) from funext splitOut_two, splitOuts_delivered ros hne,
    hs z' he, consecutivePairs_eq]
  apply List.ext_getElem <;> simp [rows2]

set_option synthInstance.maxSize 2000 in
/-- **C140 is false**: moving such a zip by one pair inside a slice of at most one
vector of pairs, then calling `end`, writes outside a vector. -/
theorem C140_false :
    runZip release64 (zipTwoAt [1#8, 2, 3, 4, 5, 6] #v[0, 0, 0, 0] #v[0, 0, 0, 0] 0)
      [.advance 1, .end_] = ub := by
  decide +kernel

set_option synthInstance.maxSize 2000 in
/-- **C140 is false**: in a release build, `finalize` moves such a zip back, and
pairs are handed out again. -/
theorem C140_finalize :
    (do
      let (os, _) ← runZip release64 (zipTwoAt [1#8, 2, 3, 4, 5, 6, 7, 8, 9] #v[0, 0] #v[0, 0] 0)
        [.next, .end_, .finalize, .end_]
      ok (os.flatMap ZipOut.delivered)) =
      ok [(1, 2), (3, 4), (5, 6), (7, 8), (5, 6), (7, 8)] := by
  decide +kernel

set_option synthInstance.maxSize 2000 in
/-- **C140 is false**: in a release build, an `advance` whose position overflows
makes `next` read outside the slice. -/
theorem C140_overflow :
    runZip release64 (zipTwoAt [1#8, 2, 3, 4, 5] #v[0, 0] #v[0, 0] 0)
      [.advance (2 ^ 63 - 1), .next] = ub := by
  decide +kernel

set_option synthInstance.maxSize 2000 in
example : (do
    let (os, z) ← runZip debug64 (zipTwoAt [1#8, 2, 3, 4, 5, 6, 7] #v[0, 0] #v[9, 9] 0)
      [.len, .next, .scalarPos, .end_, .next, .end_]
    ok (os, z.first.pos)) = ok ([.num 1, .vec (some (#v[1, 3], #v[2, 4], ())), .num 2,
      .tail (some ((#v[0, 5], #v[9, 6], ()), 1)), .vec none, .tail none], 6) := by
  decide +kernel

end Two
end Faster
