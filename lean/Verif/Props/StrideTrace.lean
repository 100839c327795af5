import Verif.Props.Trace
import Verif.Props.Stride
/-
C78: arbitrary sequences of calls of the safe methods of a strided iterator.
-/
namespace Faster
open Res SIMDSized SIMDIterable SIMDIterator

/-! ### `end` of any array iterator at any position -/

section
variable {T α : Type} {w : Nat} [SIMDSized T] [SIMDIterable T α w] [SIMDArray T α w]

/-- The blanket `end` at every position, for every array-like iterator. -/
theorem blanketEnd_exact {c : Cfg} {t t' : T} {l : List α} (h : Represents c t l) {p : Nat}
    (hpos : scalarPos c t = ok p) (hadv : p < l.length → advance c t (l.length - p) = ok t')
    (hu : l.length + w < c.usize) :
    blanketEnd c t =
      if l.length ≤ p then ok (none, t)
      else if w < l.length - p then panic
      else if 0 < p ∧ l.length ≤ w then badAccess c
      else ok (some (padFront (dflt t) (l.drop p), w - (l.length - p)), t') := by
  by_cases h1 : l.length ≤ p
  · rw [if_pos h1]
    simp only [blanketEnd, hpos, h.scalarLen, ok_bind]
    rw [if_neg (by omega)]
  · rw [if_neg h1]
    by_cases h2 : w < l.length - p
    · rw [if_pos h2]
      simp only [blanketEnd, hpos, h.scalarLen, ok_bind]
      rw [if_pos (by omega), usub_ok (by omega)]
      simp only [ok_bind]
      unfold usub
      rw [if_neg (by omega)]
      cases hd : c.debug with
      | true => simp
      | false =>
        simp only [Bool.false_eq_true, if_false, ok_bind, endVec]
        rw [if_pos (by omega), usub_ok (by omega)]
        simp only [ok_bind]
        rw [h.loadUnchecked _ (by omega)]
        have e : ¬ (c.usize + w - (l.length - p)) % c.usize < w := by
          rw [Nat.mod_eq_of_lt (by omega)]; omega
        simp [Packed.mergePartitioned, e]
    · rw [if_neg h2]
      by_cases h3 : 0 < p ∧ l.length ≤ w
      · rw [if_pos h3]
        simp only [blanketEnd, hpos, h.scalarLen, ok_bind]
        rw [if_pos (by omega), usub_ok (by omega)]
        simp only [ok_bind]
        rw [usub_ok (by omega)]
        simp only [ok_bind, endVec]
        rw [if_neg (by omega), elementLoop_bad h _ _ _ _ (by omega) (by omega) (by omega)
          (by omega)]
        simp
      · rw [if_neg h3, blanketEnd_ok h hpos (hadv (by omega)) (by omega) (by omega) (by omega),
          if_pos (by omega)]

end

/-! ### One call -/

section
variable {α : Type} {w : Nat} [Packable α]

/-- Iterator number `k` with stride `s` over `l`, at its element number `p`. -/
abbrev strideIt (l : List α) (s k : Nat) (d : Vector α w) (p : Nat) :
    PackedStride (Slice α w) α w := ⟨⟨l⟩, k + s * p, k, s, d⟩

/-- As `Moves`, for calls which do not overflow. -/
def StrideMoves (l : List α) (op : IterOp) (p : Nat) (out : List α) (q : Nat) : Prop :=
  match op with
  | .advance k => out = [] ∧ q = p + k
  | .finalize => out = [] ∧ q = l.length
  | _ => out = (l.take q).drop p ∧ p ≤ q ∧ (p < q → q ≤ l.length)

/-- The amount of an `advance` call. -/
def IterOp.amount : IterOp → Nat
  | .advance k => k
  | _ => 0

/-- The condition on `load` calls under which C27 has no overflow. -/
def LoadFits (c : Cfg) (s k w : Nat) (op : IterOp) : Prop :=
  ∀ o, op = .load o → c.debug = true ∨ k + s * (o + (w - 1)) < c.usize

theorem strideIt_pos (c : Cfg) (l : List α) {s k : Nat} (hk : k < s) (d : Vector α w) (p : Nat) :
    scalarPos c (strideIt l s k d p) = ok p := by
  simp only [SIMDIterable.scalarPos]
  rw [usub_ok (by omega)]
  simp only [ok_bind]
  rw [udiv_ok (by omega), Nat.add_sub_cancel_left, Nat.mul_div_cancel_left _ (by omega)]

theorem strideIt_advance (c : Cfg) (l : List α) {s k : Nat} (d : Vector α w)
    (p q : Nat) (h : k + s * (p + q) < c.usize) :
    advance c (strideIt l s k d p) q = ok (strideIt l s k d (p + q)) := by
  rw [Nat.mul_add] at h
  simp only [SIMDIterable.advance, PackedStride.advance]
  rw [umul_ok (by rw [Nat.mul_comm]; omega)]
  simp only [ok_bind]
  rw [Nat.mul_comm q, uadd_ok (by omega)]
  simp only [ok_bind, strideIt, Nat.mul_add, Nat.add_assoc]

/-- The three possible outcomes of one call on a strided iterator, for positions
up to `B`, all of which are `usize`. -/
theorem stride_step_spec (c : Cfg) (l : List α) {s k : Nat} (hk : k < s) (d : Vector α w)
    (B p : Nat) (hw : 0 < w) (hu : l.length + s * (w + 1) < c.usize)
    (hB : k + s * (B + w) < c.usize) (hn : l.length / s ≤ B) (op : IterOp)
    (hp : p + op.amount ≤ B) (hload : LoadFits c s k w op) :
    (op.step c (strideIt l s k d p) = ub ∧ BadCall c (strided s k l hk) w op p) ∨
    (¬ BadCall c (strided s k l hk) w op p ∧
      (op.step c (strideIt l s k d p) = panic ∨
       ∃ o q, op.step c (strideIt l s k d p) = ok (o, strideIt l s k d q) ∧
        StrideMoves (strided s k l hk) op p o.delivered q)) := by
  have hs : 0 < s := by omega
  have hd := stride_driver (represents_slice c l) hk d hw hu
  have hrep := represents_stride (represents_slice c l) hk (k + s * p) d hw hu
  have hle : ∀ q, q ≤ B + w → k + s * q < c.usize := by
    intro q hq
    have : s * q ≤ s * (B + w) := Nat.mul_le_mul_left s hq
    omega
  have hlen : (strided s k l hk).length = l.length / s := strided_length ..
  have hdl := Nat.div_le_self l.length s
  have h1w : w + 1 ≤ s * (w + 1) := Nat.le_mul_of_pos_left _ hs
  have hpB : p ≤ B := by omega
  have stay : ∀ o : IterOut α w, o.delivered = [] →
      o.delivered = ((strided s k l hk).take p).drop p ∧ p ≤ p ∧
        (p < p → p ≤ (strided s k l hk).length) := by
    intro o ho
    refine ⟨?_, Nat.le_refl _, fun h => absurd h (Nat.lt_irrefl _)⟩
    rw [ho, List.drop_eq_nil_of_le]
    simp; omega
  cases op with
  | next =>
    refine .inr ⟨by simp [BadCall], .inr ?_⟩
    by_cases hm : k + s * (p + w) < l.length
    · obtain ⟨h1, h2⟩ := hd.next_some p hm
      refine ⟨.vec (some (windowAt _ p w h1)), p + w, by simp only [IterOp.step, h2, ok_bind],
        ?_, by omega, fun _ => h1⟩
      simp only [IterOut.delivered, windowAt_toList]
      rw [List.drop_take, Nat.add_sub_cancel_left]
    · have h2 : next c (strideIt l s k d p) = ok (none, strideIt l s k d p) := by
        have hb := hle (p + w) (by omega)
        rw [Nat.mul_add] at hm hb
        simp only [SIMDIterable.next, PackedStride.next]
        rw [umul_ok (by omega)]
        simp only [ok_bind]
        rw [uadd_ok (by omega)]
        simp only [ok_bind, SIMDSized.scalarLen]
        rw [if_neg (by omega)]
      exact ⟨.vec none, p, by simp only [IterOp.step, h2, ok_bind], stay _ rfl⟩
  | end_ =>
    have hadv : p < (strided s k l hk).length →
        advance c (strideIt l s k d p) ((strided s k l hk).length - p) =
          ok (strideIt l s k d (strided s k l hk).length) := by
      intro hlt
      rw [strideIt_advance c l d p _ (by rw [Nat.add_sub_cancel' (by omega)]; exact hle _ (by omega)),
        Nat.add_sub_cancel' (by omega)]
    have he := blanketEnd_exact hrep (strideIt_pos c l hk d p) hadv (by omega)
    simp only [IterOp.step, SIMDIterator.end_, he]
    by_cases h1 : (strided s k l hk).length ≤ p
    · rw [if_pos h1]
      exact .inr ⟨by simp [BadCall]; omega, .inr ⟨.tail none, p, rfl, stay _ rfl⟩⟩
    · rw [if_neg h1]
      by_cases h2 : w < (strided s k l hk).length - p
      · rw [if_pos h2]
        exact .inr ⟨by simp [BadCall]; omega, .inl rfl⟩
      · rw [if_neg h2]
        by_cases h3 : 0 < p ∧ (strided s k l hk).length ≤ w
        · rw [if_pos h3]
          cases hdb : c.debug with
          | true => exact .inr ⟨by simp [BadCall, hdb], .inl (by simp [badAccess, hdb])⟩
          | false =>
            refine .inl ⟨by simp [badAccess, hdb], hdb, rfl, h3.1, by omega, h3.2⟩
        · rw [if_neg h3]
          refine .inr ⟨by simp [BadCall]; omega, .inr ⟨.tail (some (padFront d
            ((strided s k l hk).drop p), w - ((strided s k l hk).length - p))),
            (strided s k l hk).length, rfl, ?_, by omega, fun _ => Nat.le_refl _⟩⟩
          have := padFront_drop d ((strided s k l hk).drop p) (by rw [List.length_drop]; omega)
          rw [List.length_drop] at this
          simp only [IterOut.delivered, this, List.take_length]
  | scalar =>
    refine .inr ⟨by simp [BadCall], .inr ?_⟩
    simp only [IterOp.step, unpack, Unpacked.next, strideIt_pos c l hk d p, ok_bind, hrep.scalarLen]
    by_cases h : p < (strided s k l hk).length
    · rw [if_pos h, hrep.loadScalarUnchecked p h]
      simp only [ok_bind]
      rw [strideIt_advance c l d p 1 (hle _ (by omega))]
      refine ⟨.elem (some (strided s k l hk)[p]), p + 1, rfl, ?_, by omega, fun _ => h⟩
      simp only [IterOut.delivered]
      rw [List.drop_take, Nat.add_sub_cancel_left, List.drop_eq_getElem_cons h, List.take_succ_cons,
        List.take_zero]
    · rw [if_neg h]
      exact ⟨.elem none, p, rfl, stay _ rfl⟩
  | advance n =>
    refine .inr ⟨by simp [BadCall], .inr ⟨.unit, p + n, ?_, rfl, rfl⟩⟩
    simp only [IterOp.amount] at hp
    simp only [IterOp.step, strideIt_advance c l d p n (hle _ (by omega)), ok_bind]
  | finalize =>
    refine .inr ⟨by simp [BadCall], ?_⟩
    simp only [IterOp.step, Faster.finalize, hrep.scalarLen, strideIt_pos c l hk d p, ok_bind]
    by_cases h : p ≤ (strided s k l hk).length
    · rw [usub_ok h]
      simp only [ok_bind]
      rw [strideIt_advance c l d p _ (by rw [Nat.add_sub_cancel' h]; exact hle _ (by omega)),
        Nat.add_sub_cancel' h]
      exact .inr ⟨.unit, _, rfl, rfl, rfl⟩
    · cases hdb : c.debug with
      | true => refine .inl ?_; unfold usub; rw [if_neg h]; simp [hdb]
      | false =>
        refine .inr ⟨.unit, (strided s k l hk).length, ?_, rfl, rfl⟩
        have hsub : usub c (strided s k l hk).length p =
            ok (c.usize + (strided s k l hk).length - p) := by
          have := hle p (by omega)
          have h2 : p ≤ s * p := Nat.le_mul_of_pos_left _ hs
          unfold usub
          rw [if_neg h]
          simp only [hdb, Bool.false_eq_true, if_false]
          rw [Nat.mod_eq_of_lt (by omega)]
        rw [hsub]
        simp only [ok_bind, SIMDIterable.advance, PackedStride.advance, uadd_release hdb,
          umul_release hdb]
        have e : (k + s * p + (c.usize + (strided s k l hk).length - p) * s % c.usize) % c.usize =
            k + s * (strided s k l hk).length := by
          rw [Nat.add_mod_mod]
          have h3 := hle (strided s k l hk).length (by omega)
          have h4 := hle p (by omega)
          have h5 : p ≤ s * p := Nat.le_mul_of_pos_left _ hs
          have : k + s * p + (c.usize + (strided s k l hk).length - p) * s =
              k + s * (strided s k l hk).length + c.usize * s := by
            rw [Nat.sub_mul, Nat.add_mul, Nat.mul_comm s p, Nat.mul_comm s]
            have : p * s ≤ c.usize * s := Nat.mul_le_mul_right s (by omega)
            omega
          rw [this, Nat.add_mul_mod_self_left, Nat.mod_eq_of_lt h3]
        rw [e]
  | len =>
    refine .inr ⟨by simp [BadCall], .inr ⟨.num ((strided s k l hk).length / w), p, ?_, stay _ rfl⟩⟩
    have := hd.len p
    simp only [IterOp.step, this, ok_bind]
  | scalarPos =>
    refine .inr ⟨by simp [BadCall], .inr ⟨.num p, p, ?_, stay _ rfl⟩⟩
    simp only [IterOp.step, strideIt_pos c l hk d p, ok_bind]
  | scalarLen =>
    refine .inr ⟨by simp [BadCall], .inr ⟨.num (strided s k l hk).length, p, ?_, stay _ rfl⟩⟩
    simp only [IterOp.step, hrep.scalarLen, ok_bind]
  | vectorLen =>
    refine .inr ⟨by simp [BadCall], .inr ⟨.num ((strided s k l hk).length / w), p, ?_, stay _ rfl⟩⟩
    simp only [IterOp.step, SIMDIterable.vecLen, hrep.scalarLen, ok_bind, udiv_ok hw]
  | vectorPos =>
    refine .inr ⟨by simp [BadCall], .inr ⟨.num (s * p / (s * w)), p, ?_, stay _ rfl⟩⟩
    have h2 := hle w (by omega)
    simp only [IterOp.step, SIMDIterable.vectorPos]
    rw [usub_ok (by omega)]
    simp only [ok_bind]
    rw [umul_ok (by omega)]
    simp only [ok_bind]
    rw [udiv_ok (Nat.mul_pos hs hw), Nat.add_sub_cancel_left]
    rfl
  | load o =>
    refine .inr ⟨by simp [BadCall], ?_⟩
    have h1 := C27_stride_load_partial c l (s := s) (k := k) (k + s * p) d o hs hw (by omega)
      (hload o rfl)
    by_cases h : k + s * (o + (w - 1)) < l.length
    · have h2 := h1.1 h
      refine .inr ?_
      simp only [IterOp.step, h2, ok_bind]
      exact ⟨_, p, rfl, stay _ rfl⟩
    · refine .inl ?_
      simp only [IterOp.step, h1.2 (by omega), panic_bind]
  | loadScalar o =>
    refine .inr ⟨by simp [BadCall], ?_⟩
    simp only [IterOp.step, SIMDArray.loadScalar]
    cases h1 : (do let x ← umul c o s; uadd c k x : Res Nat) with
    | ok j =>
      cases h2 : umul c o s with
      | ok m =>
        rw [h2] at h1
        simp only [ok_bind] at h1 ⊢
        rw [h1]
        simp only [ok_bind]
        by_cases h : j < l.length
        · refine .inr ⟨.loadedScalar l[j], p, ?_, stay _ rfl⟩
          simp only [index_ok h, ok_bind]
        · refine .inl ?_
          simp only [index, List.getElem?_eq_none (Nat.le_of_not_lt h), panic_bind]
      | _ => rw [h2] at h1; cases h1
    | panic =>
      refine .inl ?_
      cases h2 : umul c o s with
      | ok m =>
        rw [h2] at h1
        simp only [ok_bind] at h1 ⊢
        rw [h1]; rfl
      | panic => rfl
      | ub => rw [h2] at h1; cases h1
      | hang => rw [h2] at h1; cases h1
    | ub =>
      exfalso
      unfold umul uadd at h1
      split at h1
      · simp only [ok_bind] at h1; split at h1 <;> (try split at h1) <;> cases h1
      · split at h1
        · cases h1
        · simp only [ok_bind] at h1; split at h1 <;> (try split at h1) <;> cases h1
    | hang =>
      exfalso
      unfold umul uadd at h1
      split at h1
      · simp only [ok_bind] at h1; split at h1 <;> (try split at h1) <;> cases h1
      · split at h1
        · cases h1
        · simp only [ok_bind] at h1; split at h1 <;> (try split at h1) <;> cases h1


/-! ### C78 -/

theorem stride_run_cons {c : Cfg} {l : List α} {s k : Nat} (hk : k < s) {d : Vector α w}
    {B p : Nat} (hw : 0 < w) (hu : l.length + s * (w + 1) < c.usize)
    (hB : k + s * (B + w) < c.usize) {op : IterOp} {ops : List IterOp}
    (hp : max p (l.length / s) + advanced (op :: ops) ≤ B)
    (hload : ∀ op' ∈ op :: ops, LoadFits c s k w op') :
    (op.step c (strideIt l s k d p) = ub ∧ BadCall c (strided s k l hk) w op p) ∨
    (¬ BadCall c (strided s k l hk) w op p ∧
      (op.step c (strideIt l s k d p) = panic ∨
       ∃ o q, op.step c (strideIt l s k d p) = ok (o, strideIt l s k d q) ∧
        StrideMoves (strided s k l hk) op p o.delivered q ∧
        max q (l.length / s) + advanced ops ≤ B)) := by
  have ha : op.amount + advanced ops = advanced (op :: ops) := by
    cases op <;> simp [IterOp.amount, advanced]
  rcases stride_step_spec c l hk d B p hw hu hB (by omega) op (by omega) (hload op (by simp)) with
    h | ⟨h1, h2 | ⟨o, q, h2, h3⟩⟩
  · exact .inl h
  · exact .inr ⟨h1, .inl h2⟩
  · refine .inr ⟨h1, .inr ⟨o, q, h2, h3, ?_⟩⟩
    have hlen : (strided s k l hk).length = l.length / s := strided_length ..
    cases op with
    | advance n => obtain ⟨-, rfl⟩ := h3; simp only [IterOp.amount] at ha; omega
    | finalize => obtain ⟨-, rfl⟩ := h3; omega
    | _ =>
      obtain ⟨-, h4, h5⟩ := h3
      by_cases h6 : p < q
      · have := h5 h6; omega
      · omega

/-- **C78 is false, exactly**, for sequences of calls whose positions do not
overflow: the undefined behaviour is that of `end` (C13), at an element inside,
not the first, when the iterator ranges over at most one vector. -/
theorem C78_exact (c : Cfg) (l : List α) {s k : Nat} (hk : k < s) (d : Vector α w) (B : Nat)
    (hw : 0 < w) (hu : l.length + s * (w + 1) < c.usize) (hB : k + s * (B + w) < c.usize) :
    ∀ (ops : List IterOp) (p : Nat), max p (l.length / s) + advanced ops ≤ B →
    (∀ op ∈ ops, LoadFits c s k w op) →
    (runOps c (strideIt l s k d p) ops = ub ↔
      ∃ pre post os q, ops = pre ++ .end_ :: post ∧
        runOps c (strideIt l s k d p) pre = ok (os, strideIt l s k d q) ∧
        c.debug = false ∧ 0 < q ∧ q < l.length / s ∧ l.length / s ≤ w) := by
  have hlen : (strided s k l hk).length = l.length / s := strided_length ..
  have hinj : ∀ p q, strideIt l s k d p = strideIt l s k d q → p = q := by
    intro p q h
    simp only [strideIt, PackedStride.mk.injEq, true_and, and_true] at h
    exact Nat.eq_of_mul_eq_mul_left (show 0 < s by omega) (by omega)
  intro ops
  induction ops with
  | nil =>
    intro p _ _
    constructor
    · intro h; cases h
    · rintro ⟨pre, post, os, q, h, -⟩
      simp at h
  | cons op ops ih =>
    intro p hp hload
    have key : ∀ pre post os q, op :: ops = pre ++ .end_ :: post →
        runOps c (strideIt l s k d p) pre = ok (os, strideIt l s k d q) →
        c.debug = false → 0 < q → q < l.length / s → l.length / s ≤ w →
        (BadCall c (strided s k l hk) w op p) ∨ ∃ pre', pre = op :: pre' ∧ ops = pre' ++ .end_ :: post := by
      intro pre post os q h1 h2 h3 h4 h5 h6
      cases pre with
      | nil =>
        simp only [List.nil_append, List.cons.injEq] at h1
        simp only [runOps, ok.injEq, Prod.mk.injEq] at h2
        have := hinj _ _ h2.2
        subst this
        exact .inl ⟨h3, h1.1, h4, by omega, by omega⟩
      | cons a pre' =>
        simp only [List.cons_append, List.cons.injEq] at h1
        exact .inr ⟨pre', by rw [h1.1], h1.2⟩
    rcases stride_run_cons hk (d := d) hw hu hB hp hload with
      ⟨h1, h2⟩ | ⟨hb, h1 | ⟨o, q1, h1, -, hq1⟩⟩
    · constructor
      · intro _
        obtain ⟨h3, h4, h5, h6, h7⟩ := h2
        exact ⟨[], ops, [], p, by rw [h4]; rfl, rfl, h3, h5, by omega, by omega⟩
      · intro _
        simp only [runOps, h1, ub_bind]
    · constructor
      · intro h
        simp only [runOps, h1, panic_bind] at h
        cases h
      · rintro ⟨pre, post, os, q, h3, h4, h5, h6, h7, h8⟩
        rcases key pre post os q h3 h4 h5 h6 h7 h8 with h | ⟨pre', rfl, -⟩
        · exact absurd h hb
        · simp only [runOps, h1, panic_bind] at h4
          cases h4
    · have e : runOps c (strideIt l s k d p) (op :: ops) = ub ↔
          runOps c (strideIt l s k d q1) ops = ub := by
        simp only [runOps, h1, ok_bind]
        cases runOps c (strideIt l s k d q1) ops <;> simp
      rw [e, ih q1 hq1 (fun op' h => hload op' (by simp [h]))]
      constructor
      · rintro ⟨pre, post, os, q, h3, h4, h5⟩
        exact ⟨op :: pre, post, o :: os, q, by rw [h3]; rfl, by simp only [runOps, h1, h4, ok_bind], h5⟩
      · rintro ⟨pre, post, os, q, h3, h4, h5, h6, h7, h8⟩
        rcases key pre post os q h3 h4 h5 h6 h7 h8 with h | ⟨pre', rfl, h9⟩
        · exact absurd h hb
        · simp only [runOps, h1, ok_bind] at h4
          cases h10 : runOps c (strideIt l s k d q1) pre' with
          | ok r =>
            rw [h10] at h4
            simp only [ok_bind, ok.injEq, Prod.mk.injEq] at h4
            exact ⟨pre', post, r.1, q, h9, by rw [h10, ← h4.2], h5, h6, h7, h8⟩
          | panic => rw [h10] at h4; cases h4
          | ub => rw [h10] at h4; cases h4
          | hang => rw [h10] at h4; cases h4

/-- **C78**, the part which holds: a sequence of calls is memory safe if its
positions and the indices of its `load`s do not overflow and the iterator ranges
over more than a vector, or `end` is not called. Missing: `C78_exact`,
`C78_next_release` and, for `load`, `C27_load_release`. -/
theorem C78_safe_partial (c : Cfg) (l : List α) {s k : Nat} (hk : k < s) (d : Vector α w)
    (B p : Nat) (ops : List IterOp) (hw : 0 < w) (hu : l.length + s * (w + 1) < c.usize)
    (hB : k + s * (B + w) < c.usize) (hp : max p (l.length / s) + advanced ops ≤ B)
    (hload : ∀ op ∈ ops, LoadFits c s k w op) (h : w < l.length / s ∨ .end_ ∉ ops) :
    (runOps c (strideIt l s k d p) ops).isSafe := by
  have h2 : runOps c (strideIt l s k d p) ops ≠ ub := by
    rw [ne_eq, C78_exact c l hk d B hw hu hB ops p hp hload]
    rintro ⟨pre, post, os, q, h3, -, h5, -, -, h8⟩
    rcases h with h | h
    · omega
    · rw [h3] at h; simp at h
  cases h3 : runOps c (strideIt l s k d p) ops with
  | ub => exact absurd h3 h2
  | _ => trivial

/-- **C78**, order: the elements handed out by any such sequence of calls are
elements of the strided list in their order, each at most once. -/
theorem C78_in_order_partial (c : Cfg) (l : List α) {s k : Nat} (hk : k < s) (d : Vector α w) (B : Nat)
    (hw : 0 < w) (hu : l.length + s * (w + 1) < c.usize) (hB : k + s * (B + w) < c.usize) :
    ∀ (ops : List IterOp) (p : Nat) (os : List (IterOut α w)) (it' : PackedStride (Slice α w) α w),
    max p (l.length / s) + advanced ops ≤ B → (∀ op ∈ ops, LoadFits c s k w op) →
    runOps c (strideIt l s k d p) ops = ok (os, it') →
    (os.flatMap IterOut.delivered).Sublist ((strided s k l hk).drop p) := by
  intro ops
  induction ops with
  | nil =>
    intro p os it' _ _ h
    simp only [runOps, ok.injEq, Prod.mk.injEq] at h
    rw [← h.1]
    exact List.nil_sublist _
  | cons op ops ih =>
    intro p os it' hp hload h
    rcases stride_run_cons hk (d := d) hw hu hB hp hload with
      ⟨h1, -⟩ | ⟨-, h1 | ⟨o, q, h1, hm, hq⟩⟩
    · simp only [runOps, h1, ub_bind] at h; cases h
    · simp only [runOps, h1, panic_bind] at h; cases h
    · simp only [runOps, h1, ok_bind] at h
      cases h2 : runOps c (strideIt l s k d q) ops with
      | ok r =>
        rw [h2] at h
        simp only [ok_bind, ok.injEq, Prod.mk.injEq] at h
        have hi := ih q r.1 r.2 hq (fun op' h => hload op' (by simp [h])) h2
        rw [← h.1, List.flatMap_cons]
        cases op with
        | advance n =>
          obtain ⟨ho, rfl⟩ := hm
          rw [ho, List.nil_append]
          refine hi.trans ?_
          rw [← List.drop_drop]
          exact List.drop_sublist _ _
        | finalize =>
          obtain ⟨ho, rfl⟩ := hm
          rw [ho, List.nil_append]
          rw [List.drop_length] at hi
          rw [List.sublist_nil.mp hi]
          exact List.nil_sublist _
        | _ =>
          obtain ⟨ho, h3, -⟩ := hm
          rw [ho]
          have e : (strided s k l hk).drop p =
              ((strided s k l hk).take q).drop p ++ (strided s k l hk).drop q := by
            have := List.take_append_drop (q - p) ((strided s k l hk).drop p)
            rw [List.drop_drop, Nat.add_sub_cancel' h3] at this
            rw [List.drop_take, this]
          rw [e]
          exact (List.Sublist.refl _).append hi
      | panic => rw [h2] at h; cases h
      | ub => rw [h2] at h; cases h
      | hang => rw [h2] at h; cases h

/-- `next` in a release build from any value of the position: all indices are
computed modulo 2^64, and if the check passes because it wrapped around, the
lanes before the wrap are read outside the collection. -/
theorem C78_next_release (c : Cfg) (l : List α) {s k : Nat} (pos : Nat) (d : Vector α w)
    (hd : c.debug = false) :
    next c (⟨⟨l⟩, pos, k, s, d⟩ : PackedStride (Slice α w) α w) =
      if (pos + s * w) % c.usize < l.length then
        if h : ∀ j, j < w → (pos + s * j) % c.usize < l.length then
          ok (some (Vector.ofFn fun j => l[(pos + s * j.val) % c.usize]'(h _ j.isLt)),
            ⟨⟨l⟩, (pos + s * w) % c.usize, k, s, d⟩)
        else ub
      else ok (none, ⟨⟨l⟩, pos, k, s, d⟩) := by
  simp only [SIMDIterable.next, PackedStride.next, PackedStride.advance, uadd_release hd,
    umul_release hd, ok_bind, SIMDSized.scalarLen, Nat.add_mod_mod]
  by_cases h1 : (pos + s * w) % c.usize < l.length
  · rw [if_pos h1, if_pos h1]
    by_cases h2 : ∀ j, j < w → (pos + s * j) % c.usize < l.length
    · rw [dif_pos h2, strideLoop_ok (represents_slice c l) _ (fun j => (pos + s * j) % c.usize)
        (fun _ _ => rfl) h2 w 0 _ (by omega)]
      simp only [ok_bind, Nat.mul_comm w s]
      rfl
    · rw [dif_neg h2, strideLoop_bad hd l _ (fun j => (pos + s * j) % c.usize) (fun _ _ => rfl) w 0 _
        (by omega)]
      · rfl
      · simp only [Classical.not_forall] at h2
        obtain ⟨j, hj, h3⟩ := h2
        exact ⟨j, Nat.zero_le _, hj, Nat.le_of_not_lt h3⟩
  · rw [if_neg h1, if_neg h1]

/-- **C78 is false**: a large `advance` before `next`, or a `scalar` before `end`,
access memory out of bounds. -/
theorem C78_false :
    runOps release64 (strideTwo (⟨[1#8, 2, 3, 4, 5]⟩ : Slice _ 2) (#v[0#8, 0], #v[0, 0])).1
      [.advance (2 ^ 63 - 1), .next] = ub ∧
    runOps release64 (strideTwo (⟨[1#8, 2, 3, 4, 5]⟩ : Slice _ 2) (#v[0#8, 0], #v[0, 0])).1
      [.scalar, .end_] = ub := by
  constructor <;> decide +kernel

example : runOps release64 (strideTwo (⟨[1#8, 2, 3, 4, 5, 6, 7, 8]⟩ : Slice _ 2) (#v[0#8, 0], #v[0, 0])).1
    [.scalar, .next, .end_, .next] =
    ok ([.elem (some 1), .vec (some #v[3, 5]), .tail (some (#v[0, 7], 1)), .vec none],
      ⟨⟨[1, 2, 3, 4, 5, 6, 7, 8]⟩, 8, 0, 2, #v[0, 0]⟩) := by decide +kernel

end
end Faster
