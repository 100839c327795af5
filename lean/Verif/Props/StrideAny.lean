import Verif.Props.StrideTrace
import Verif.Props.DebugBuilt
import Verif.Props.Protocol

/-!
C78 without restriction: the exact condition for undefined behaviour of any sequence of calls on a
strided iterator, from any position, with any amounts, also where computations wrap around.
-/

namespace Faster
open Res SIMDSized SIMDIterable SIMDIterator

/-- A sequence of calls has undefined behaviour if and only if one of them has, after those before
it returned. -/
theorem runOps_ub_iff {I α : Type} {w : Nat} [SIMDSized I] [SIMDIterator I α w] [SIMDArray I α w]
    (c : Cfg) : ∀ (ops : List IterOp) (it : I), runOps c it ops = ub ↔
      ∃ pre op post os it', ops = pre ++ op :: post ∧ runOps c it pre = ok (os, it') ∧
        op.step c it' = ub := by
  intro ops
  induction ops with
  | nil =>
    intro it
    constructor
    · intro h; cases h
    · rintro ⟨pre, op, post, os, it', h, -⟩
      simp at h
  | cons op ops ih =>
    intro it
    constructor
    · intro h
      simp only [runOps] at h
      cases h1 : op.step c it with
      | ok r =>
        rw [h1] at h
        simp only [ok_bind] at h
        have h2 : runOps c r.2 ops = ub := by
          cases h2 : runOps c r.2 ops <;> rw [h2] at h <;> simp_all
        obtain ⟨pre, op', post, os, it', h3, h4, h5⟩ := (ih r.2).1 h2
        exact ⟨op :: pre, op', post, r.1 :: os, it', by rw [h3]; rfl,
          by simp only [runOps, h1, h4, ok_bind], h5⟩
      | ub => exact ⟨[], op, ops, [], it, rfl, rfl, h1⟩
      | panic => rw [h1] at h; cases h
      | hang => rw [h1] at h; cases h
    · rintro ⟨pre, op', post, os, it', h1, h2, h3⟩
      cases pre with
      | nil =>
        simp only [List.nil_append, List.cons.injEq] at h1
        simp only [runOps, ok.injEq, Prod.mk.injEq] at h2
        rw [← h1.1, ← h2.2] at h3
        simp only [runOps, h3, ub_bind]
      | cons a pre' =>
        simp only [List.cons_append, List.cons.injEq] at h1
        obtain ⟨rfl, h1⟩ := h1
        simp only [runOps] at h2
        obtain ⟨r, h4, h5⟩ := bind_eq_ok.1 h2
        obtain ⟨r', h6, h7⟩ := bind_eq_ok.1 h5
        have h8 := (ih r.2).2 ⟨pre', op', post, r'.1, r'.2, h1, h6, by
          simp only [ok.injEq, Prod.mk.injEq] at h7
          rw [h7.2]; exact h3⟩
        simp only [runOps, h4, h8, ok_bind, ub_bind]

section
variable {α : Type} {w : Nat} [Packable α]

/-- The number of the element at which a strided iterator stands, as `scalar_pos` computes it. -/
def elemNo (c : Cfg) (s k pos : Nat) : Nat := (c.usize + pos - k) % c.usize / s

/-- The calls with undefined behaviour at the index `pos`, on iterator number `k` of stride `s` over
`n` elements, in a release build: `next` and `load` whose last index wraps around into the
collection while an earlier one is outside, and `end` strictly inside a stride of at most one
vector. -/
def BadStride (c : Cfg) (n s k w : Nat) : IterOp → Nat → Prop
  | .next, pos => (pos + s * w) % c.usize < n ∧ ∃ j, j < w ∧ n ≤ (pos + s * j) % c.usize
  | .end_, pos => 0 < elemNo c s k pos ∧ elemNo c s k pos < n / s ∧ n / s ≤ w
  | .load o, _ => (k + s * (o + (w - 1))) % c.usize < n ∧
      ∃ j, j < w ∧ n ≤ (k + s * (o + j)) % c.usize
  | _, _ => False

/-- One call on a strided iterator in a release build, at any index. -/
theorem stride_step_any (c : Cfg) (hdb : c.debug = false) (l : List α) {s k : Nat} (hk : k < s)
    (d : Vector α w) (pos : Nat) (hw : 0 < w) (hu : l.length + s * (w + 1) < c.usize)
    (hpos : pos < c.usize) (op : IterOp) :
    (op.step c (⟨⟨l⟩, pos, k, s, d⟩ : PackedStride (Slice α w) α w) = ub ∧
      BadStride c l.length s k w op pos) ∨
    (¬ BadStride c l.length s k w op pos ∧
      (op.step c (⟨⟨l⟩, pos, k, s, d⟩ : PackedStride (Slice α w) α w) = panic ∨
       ∃ o q, q < c.usize ∧ op.step c (⟨⟨l⟩, pos, k, s, d⟩ : PackedStride (Slice α w) α w) =
        ok (o, ⟨⟨l⟩, q, k, s, d⟩))) := by
  have hs : 0 < s := by omega
  have hsw : s ≤ s * (w + 1) := Nat.le_mul_of_pos_right _ (by omega)
  have hsw' : s * (w + 1) = s * w + s := Nat.mul_succ ..
  have h1w : w ≤ s * w := Nat.le_mul_of_pos_left _ hs
  have hu0 : 0 < c.usize := by omega
  have hrep := represents_stride (represents_slice c l) hk pos d hw hu
  have hlen : (strided s k l hk).length = l.length / s := strided_length ..
  have hdl := Nat.div_le_self l.length s
  have hsub : usub c pos k = ok ((c.usize + pos - k) % c.usize) := by
    unfold usub
    split
    · next h =>
      congr 1
      rw [show c.usize + pos - k = (pos - k) + c.usize by omega, Nat.add_mod_right,
        Nat.mod_eq_of_lt (by omega)]
    · simp [hdb]
  have hsp : SIMDIterable.scalarPos c (⟨⟨l⟩, pos, k, s, d⟩ : PackedStride (Slice α w) α w) =
      ok (elemNo c s k pos) := by
    simp only [SIMDIterable.scalarPos, hsub, ok_bind]
    rw [udiv_ok hs]
    rfl
  have hadv : ∀ n, SIMDIterable.advance c (⟨⟨l⟩, pos, k, s, d⟩ : PackedStride (Slice α w) α w) n =
      ok ⟨⟨l⟩, (pos + n * s) % c.usize, k, s, d⟩ := by
    intro n
    simp only [SIMDIterable.advance, PackedStride.advance, uadd_release hdb, umul_release hdb, ok_bind,
      Nat.add_mod_mod]
  have hmod : ∀ n, n % c.usize < c.usize := fun n => Nat.mod_lt _ hu0
  cases op with
  | next =>
    simp only [IterOp.step, C78_next_release c l pos d hdb]
    by_cases h1 : (pos + s * w) % c.usize < l.length
    · rw [if_pos h1]
      by_cases h2 : ∀ j, j < w → (pos + s * j) % c.usize < l.length
      · rw [dif_pos h2]
        refine .inr ⟨?_, .inr ⟨_, _, hmod _, rfl⟩⟩
        rintro ⟨-, j, hj, h3⟩
        have := h2 j hj
        omega
      · rw [dif_neg h2]
        simp only [Classical.not_forall, Nat.not_lt] at h2
        obtain ⟨j, hj, h3⟩ := h2
        exact .inl ⟨rfl, h1, j, hj, h3⟩
    · rw [if_neg h1]
      exact .inr ⟨fun h => h1 h.1, .inr ⟨_, _, hpos, rfl⟩⟩
  | end_ =>
    have he := blanketEnd_exact hrep hsp (fun _ => hadv _) (by omega)
    simp only [IterOp.step, SIMDIterator.end_, he, hlen]
    by_cases h1 : l.length / s ≤ elemNo c s k pos
    · rw [if_pos h1]
      exact .inr ⟨by simp only [BadStride]; omega, .inr ⟨_, _, hpos, rfl⟩⟩
    · rw [if_neg h1]
      by_cases h2 : w < l.length / s - elemNo c s k pos
      · rw [if_pos h2]
        exact .inr ⟨by simp only [BadStride]; omega, .inl rfl⟩
      · rw [if_neg h2]
        by_cases h3 : 0 < elemNo c s k pos ∧ l.length / s ≤ w
        · rw [if_pos h3]
          exact .inl ⟨by simp [badAccess, hdb], h3.1, by omega, h3.2⟩
        · rw [if_neg h3]
          exact .inr ⟨by simp only [BadStride]; omega, .inr ⟨_, _, hmod _, rfl⟩⟩
  | scalar =>
    refine .inr ⟨id, .inr ?_⟩
    simp only [IterOp.step, unpack, Unpacked.next, hsp, ok_bind, hrep.scalarLen]
    by_cases h : elemNo c s k pos < (strided s k l hk).length
    · rw [if_pos h, hrep.loadScalarUnchecked _ h]
      simp only [ok_bind, hadv]
      exact ⟨_, _, hmod _, rfl⟩
    · rw [if_neg h]
      exact ⟨_, _, hpos, rfl⟩
  | advance n =>
    refine .inr ⟨id, .inr ⟨.unit, _, hmod (pos + n * s), ?_⟩⟩
    simp only [IterOp.step, hadv, ok_bind]
  | finalize =>
    refine .inr ⟨id, .inr ?_⟩
    simp only [IterOp.step, Faster.finalize, hrep.scalarLen, hsp, ok_bind]
    have : ∃ x, usub c (strided s k l hk).length (elemNo c s k pos) = ok x := by
      unfold usub
      split
      · exact ⟨_, rfl⟩
      · simp [hdb]
    obtain ⟨x, hx⟩ := this
    rw [hx]
    simp only [ok_bind, hadv]
    exact ⟨_, _, hmod _, rfl⟩
  | len =>
    have h := (stride_driver (represents_slice c l) hk d hw hu).len 0
    refine .inr ⟨id, .inr ⟨.num ((strided s k l hk).length / w), pos, hpos, ?_⟩⟩
    simp only [IterOp.step]
    have e : SIMDIterable.len c (⟨⟨l⟩, pos, k, s, d⟩ : PackedStride (Slice α w) α w) =
        ok ((strided s k l hk).length / w) := h
    rw [e]
    rfl
  | scalarPos =>
    refine .inr ⟨id, .inr ⟨.num (elemNo c s k pos), pos, hpos, ?_⟩⟩
    simp only [IterOp.step, hsp, ok_bind]
  | scalarLen =>
    refine .inr ⟨id, .inr ⟨.num (strided s k l hk).length, pos, hpos, ?_⟩⟩
    simp only [IterOp.step, hrep.scalarLen, ok_bind]
  | vectorLen =>
    refine .inr ⟨id, .inr ⟨.num ((strided s k l hk).length / w), pos, hpos, ?_⟩⟩
    simp only [IterOp.step, SIMDIterable.vecLen, hrep.scalarLen, ok_bind, udiv_ok hw]
  | vectorPos =>
    refine .inr ⟨id, .inr ⟨.num ((c.usize + pos - k) % c.usize / (s * w)), pos, hpos, ?_⟩⟩
    simp only [IterOp.step, SIMDIterable.vectorPos, hsub, ok_bind]
    rw [umul_ok (by omega)]
    simp only [ok_bind]
    rw [udiv_ok (Nat.mul_pos hs hw)]
    rfl
  | load o =>
    simp only [IterOp.step, C27_load_release c l pos d o hw hdb]
    by_cases h1 : l.length ≤ (k + s * (o + (w - 1))) % c.usize
    · rw [if_pos h1]
      exact .inr ⟨fun h => by have := h.1; omega, .inl rfl⟩
    · rw [if_neg h1]
      by_cases h2 : ∀ j, j < w → (k + s * (o + j)) % c.usize < l.length
      · rw [dif_pos h2]
        refine .inr ⟨?_, .inr ⟨_, _, hpos, rfl⟩⟩
        rintro ⟨-, j, hj, h3⟩
        have := h2 j hj
        omega
      · rw [dif_neg h2]
        simp only [Classical.not_forall, Nat.not_lt] at h2
        obtain ⟨j, hj, h3⟩ := h2
        exact .inl ⟨rfl, by omega, j, hj, h3⟩
  | loadScalar o =>
    refine .inr ⟨id, ?_⟩
    simp only [IterOp.step, SIMDArray.loadScalar, uadd_release hdb, umul_release hdb, ok_bind]
    by_cases h : (k + o * s % c.usize) % c.usize < l.length
    · refine .inr ⟨.loadedScalar (l[(k + o * s % c.usize) % c.usize]'h), pos, hpos, ?_⟩
      simp only [index_ok h, ok_bind]
    · refine .inl ?_
      simp only [index, List.getElem?_eq_none (Nat.le_of_not_lt h), panic_bind]

/-- Whatever is called, only the index of a strided iterator changes. -/
theorem stride_run_any (c : Cfg) (hdb : c.debug = false) (l : List α) {s k : Nat} (hk : k < s)
    (d : Vector α w) (hw : 0 < w) (hu : l.length + s * (w + 1) < c.usize) :
    ∀ (ops : List IterOp) (pos : Nat) (os : List (IterOut α w)) (it' : PackedStride (Slice α w) α w),
      pos < c.usize → runOps c (⟨⟨l⟩, pos, k, s, d⟩ : PackedStride (Slice α w) α w) ops = ok (os, it') →
      ∃ q, q < c.usize ∧ it' = ⟨⟨l⟩, q, k, s, d⟩ := by
  intro ops
  induction ops with
  | nil =>
    intro pos os it' hpos h
    simp only [runOps, ok.injEq, Prod.mk.injEq] at h
    exact ⟨pos, hpos, h.2.symm⟩
  | cons op ops ih =>
    intro pos os it' hpos h
    simp only [runOps] at h
    rcases stride_step_any c hdb l hk d pos hw hu hpos op with ⟨h1, -⟩ | ⟨-, h1 | ⟨o, q, hq, h1⟩⟩
    · rw [h1] at h; cases h
    · rw [h1] at h; cases h
    · rw [h1] at h
      simp only [ok_bind] at h
      obtain ⟨r, h2, h3⟩ := bind_eq_ok.1 h
      simp only [ok.injEq, Prod.mk.injEq] at h3
      rw [← h3.2]
      exact ih q r.1 r.2 hq h2

/-- **C78 is false, exactly, without restriction**: any sequence of calls, with any amounts and
offsets, on any strided iterator at any index has undefined behaviour if and only if the build is a
release build and some call is one of `BadStride` at the index reached by the calls before it. -/
theorem C78_exact_any (c : Cfg) (l : List α) {s k : Nat} (hk : k < s) (d : Vector α w) (pos : Nat)
    (hw : 0 < w) (hu : l.length + s * (w + 1) < c.usize) (hpos : pos < c.usize)
    (ops : List IterOp) :
    runOps c (⟨⟨l⟩, pos, k, s, d⟩ : PackedStride (Slice α w) α w) ops = ub ↔
      c.debug = false ∧ ∃ pre op post os q, ops = pre ++ op :: post ∧
        runOps c (⟨⟨l⟩, pos, k, s, d⟩ : PackedStride (Slice α w) α w) pre =
          ok (os, ⟨⟨l⟩, q, k, s, d⟩) ∧ BadStride c l.length s k w op q := by
  cases hdb : c.debug with
  | true =>
    constructor
    · intro h
      have := C79_calls hdb (C79_stride hdb (C79_slice hdb (α := α) (w := w)))
        (C79_stride_array hdb (C79_slice hdb)) ops ⟨⟨l⟩, pos, k, s, d⟩ trivial
      rw [h] at this
      exact this.elim
    · rintro ⟨h, -⟩
      cases h
  | false =>
    rw [runOps_ub_iff]
    constructor
    · rintro ⟨pre, op, post, os, it', h1, h2, h3⟩
      obtain ⟨q, hq, rfl⟩ := stride_run_any c hdb l hk d hw hu pre pos os it' hpos h2
      rcases stride_step_any c hdb l hk d q hw hu hq op with ⟨-, h4⟩ | ⟨-, h4 | ⟨o, q', -, h4⟩⟩
      · exact ⟨rfl, pre, op, post, os, q, h1, h2, h4⟩
      · rw [h4] at h3; cases h3
      · rw [h4] at h3; cases h3
    · rintro ⟨-, pre, op, post, os, q, h1, h2, h3⟩
      refine ⟨pre, op, post, os, _, h1, h2, ?_⟩
      obtain ⟨q', hq', e⟩ := stride_run_any c hdb l hk d hw hu pre pos os _ hpos h2
      simp only [PackedStride.mk.injEq, true_and, and_true] at e
      subst e
      rcases stride_step_any c hdb l hk d q hw hu hq' op with ⟨h4, -⟩ | ⟨h4, -⟩
      · exact h4
      · exact absurd h3 h4

/-! ### Order, in debug builds -/

/-- One call in a debug build, at any element whose index is a `usize`. -/
theorem stride_step_debug (c : Cfg) (hdb : c.debug = true) (l : List α) {s k : Nat} (hk : k < s)
    (d : Vector α w) (p : Nat) (hw : 0 < w) (hu : l.length + s * (w + 1) < c.usize)
    (hp : k + s * p < c.usize) (op : IterOp) :
    op.step c (strideIt l s k d p) = panic ∨
      ∃ o q, k + s * q < c.usize ∧ op.step c (strideIt l s k d p) = ok (o, strideIt l s k d q) ∧
        StrideMoves (strided s k l hk) op p o.delivered q := by
  have hs : 0 < s := by omega
  have hlen : (strided s k l hk).length = l.length / s := strided_length ..
  have hdm : s * (l.length / s) ≤ l.length := Nat.mul_div_le ..
  have hsw : s * (w + 1) = s * w + s := Nat.mul_succ ..
  by_cases hB : k + s * (max (p + op.amount) (l.length / s) + w) < c.usize
  · rcases stride_step_spec c l hk d (max (p + op.amount) (l.length / s)) p hw hu hB (by omega) op
      (by omega) (fun o _ => .inl hdb) with ⟨-, h, -⟩ | ⟨-, h | ⟨o, q, h1, h2⟩⟩
    · rw [hdb] at h; cases h
    · exact .inl h
    · refine .inr ⟨o, q, ?_, h1, h2⟩
      have hq : q ≤ max (p + op.amount) (l.length / s) := by
        cases op with
        | advance n => obtain ⟨-, rfl⟩ := h2; simp only [IterOp.amount]; omega
        | finalize => obtain ⟨-, rfl⟩ := h2; omega
        | _ =>
          obtain ⟨-, h3, h4⟩ := h2
          by_cases h5 : p < q
          · have := h4 h5; omega
          · omega
      have := Nat.mul_le_mul_left s (show q ≤ max (p + op.amount) (l.length / s) + w by omega)
      omega
  · have hmax : max (p + op.amount) (l.length / s) = p + op.amount := by
      by_cases h : l.length / s ≤ p + op.amount
      · omega
      · exfalso
        rw [show max (p + op.amount) (l.length / s) = l.length / s by omega, Nat.mul_add] at hB
        omega
    rw [hmax, Nat.mul_add, Nat.mul_add] at hB
    have hrep := represents_stride (represents_slice c l) hk (k + s * p) d hw hu
    have big : op.amount = 0 → (strided s k l hk).length < p := by
      intro h0
      rw [h0] at hB
      rw [hlen]
      by_cases h : p ≤ l.length / s
      · have := Nat.mul_le_mul_left s h
        omega
      · omega
    have stay : ∀ o : IterOut α w, o.delivered = [] →
        o.delivered = ((strided s k l hk).take p).drop p ∧ p ≤ p ∧
          (p < p → p ≤ (strided s k l hk).length) := by
      intro o ho
      refine ⟨?_, Nat.le_refl _, fun h => absurd h (Nat.lt_irrefl _)⟩
      rw [ho, List.drop_eq_nil_of_le]
      simp; omega
    cases op with
    | next =>
      refine .inl ?_
      simp only [IterOp.amount, Nat.mul_zero, Nat.add_zero] at hB
      simp only [IterOp.step, SIMDIterable.next, PackedStride.next]
      by_cases h : s * w < c.usize
      · rw [umul_ok h]
        simp only [ok_bind]
        unfold uadd
        rw [if_neg (by omega)]
        simp [hdb]
      · unfold umul
        rw [if_neg h]
        simp [hdb]
    | end_ =>
      have := big rfl
      have he := blanketEnd_exact (t' := strideIt l s k d p) hrep (strideIt_pos c l hk d p)
        (fun h => by omega) (by
          have h1w : w ≤ s * w := Nat.le_mul_of_pos_left _ hs
          have := Nat.div_le_self l.length s
          omega)
      refine .inr ⟨.tail none, p, hp, ?_, stay _ rfl⟩
      simp only [IterOp.step, SIMDIterator.end_, he]
      rw [if_pos (by omega)]
      rfl
    | scalar =>
      have := big rfl
      refine .inr ⟨.elem none, p, hp, ?_, stay _ rfl⟩
      simp only [IterOp.step, unpack, Unpacked.next, strideIt_pos c l hk d p, ok_bind,
        hrep.scalarLen]
      rw [if_neg (by omega)]
      rfl
    | advance n =>
      by_cases h : k + s * (p + n) < c.usize
      · exact .inr ⟨.unit, p + n, h, by simp only [IterOp.step, strideIt_advance c l d p n h, ok_bind],
          rfl, rfl⟩
      · refine .inl ?_
        rw [Nat.mul_add] at h
        simp only [IterOp.step, SIMDIterable.advance, PackedStride.advance]
        by_cases h1 : n * s < c.usize
        · rw [umul_ok h1]
          simp only [ok_bind]
          unfold uadd
          rw [if_neg (by rw [Nat.mul_comm n]; omega)]
          simp [hdb]
        · unfold umul
          rw [if_neg h1]
          simp [hdb]
    | finalize =>
      have := big rfl
      refine .inl ?_
      simp only [IterOp.step, Faster.finalize, hrep.scalarLen, strideIt_pos c l hk d p, ok_bind]
      unfold usub
      rw [if_neg (by omega)]
      simp [hdb]
    | len =>
      refine .inr ⟨.num ((strided s k l hk).length / w), p, hp, ?_, stay _ rfl⟩
      have h := (stride_driver (represents_slice c l) hk d hw hu).len p
      simp only [IterOp.step, h, ok_bind]
    | scalarPos =>
      refine .inr ⟨.num p, p, hp, ?_, stay _ rfl⟩
      simp only [IterOp.step, strideIt_pos c l hk d p, ok_bind]
    | scalarLen =>
      refine .inr ⟨.num (strided s k l hk).length, p, hp, ?_, stay _ rfl⟩
      simp only [IterOp.step, hrep.scalarLen, ok_bind]
    | vectorLen =>
      refine .inr ⟨.num ((strided s k l hk).length / w), p, hp, ?_, stay _ rfl⟩
      simp only [IterOp.step, SIMDIterable.vecLen, hrep.scalarLen, ok_bind, udiv_ok hw]
    | vectorPos =>
      refine .inr ⟨.num (s * p / (s * w)), p, hp, ?_, stay _ rfl⟩
      simp only [IterOp.step, SIMDIterable.vectorPos]
      rw [usub_ok (by omega)]
      simp only [ok_bind]
      rw [umul_ok (by omega)]
      simp only [ok_bind]
      rw [udiv_ok (Nat.mul_pos hs hw), Nat.add_sub_cancel_left]
      rfl
    | load o =>
      have h1 := C27_stride_load_partial c l (s := s) (k := k) (k + s * p) d o hs hw (by omega)
        (.inl hdb)
      by_cases h : k + s * (o + (w - 1)) < l.length
      · refine .inr ?_
        simp only [IterOp.step, h1.1 h, ok_bind]
        exact ⟨_, p, hp, rfl, stay _ rfl⟩
      · refine .inl ?_
        simp only [IterOp.step, h1.2 (by omega), panic_bind]
    | loadScalar o =>
      simp only [IterOp.step, SIMDArray.loadScalar]
      by_cases h1 : o * s < c.usize
      · rw [umul_ok h1]
        simp only [ok_bind]
        by_cases h2 : k + o * s < c.usize
        · rw [uadd_ok h2]
          simp only [ok_bind]
          by_cases h : k + o * s < l.length
          · refine .inr ⟨.loadedScalar l[k + o * s], p, hp, ?_, stay _ rfl⟩
            simp only [index_ok h, ok_bind]
          · refine .inl ?_
            simp only [index, List.getElem?_eq_none (Nat.le_of_not_lt h), panic_bind]
        · refine .inl ?_
          unfold uadd
          rw [if_neg h2]
          simp [hdb]
      · refine .inl ?_
        unfold umul
        rw [if_neg h1]
        simp [hdb]

/-- **C78**, order, in debug builds: whatever is called, with whatever amounts, the elements handed
out are elements of the strided list in their order, each at most once. -/
theorem C78_in_order_debug (c : Cfg) (hdb : c.debug = true) (l : List α) {s k : Nat} (hk : k < s)
    (d : Vector α w) (hw : 0 < w) (hu : l.length + s * (w + 1) < c.usize) :
    ∀ (ops : List IterOp) (p : Nat) (os : List (IterOut α w)) (it' : PackedStride (Slice α w) α w),
    k + s * p < c.usize → runOps c (strideIt l s k d p) ops = ok (os, it') →
    (os.flatMap IterOut.delivered).Sublist ((strided s k l hk).drop p) := by
  intro ops
  induction ops with
  | nil =>
    intro p os it' _ h
    simp only [runOps, ok.injEq, Prod.mk.injEq] at h
    rw [← h.1]
    exact List.nil_sublist _
  | cons op ops ih =>
    intro p os it' hp h
    simp only [runOps] at h
    rcases stride_step_debug c hdb l hk d p hw hu hp op with h1 | ⟨o, q, hq, h1, hm⟩
    · rw [h1] at h; cases h
    · rw [h1] at h
      simp only [ok_bind] at h
      obtain ⟨r, h2, h3⟩ := bind_eq_ok.1 h
      simp only [ok.injEq, Prod.mk.injEq] at h3
      have hi := ih q r.1 r.2 hq h2
      rw [← h3.1, List.flatMap_cons]
      cases op with
      | advance n =>
        obtain ⟨ho, rfl⟩ := hm
        rw [ho, List.nil_append]
        refine hi.trans ?_
        rw [← List.drop_drop]
        exact List.drop_sublist _ _
      | finalize =>
        obtain ⟨ho, rfl⟩ := hm
        rw [ho, List.nil_append]
        rw [List.drop_length] at hi
        rw [List.sublist_nil.mp hi]
        exact List.nil_sublist _
      | _ =>
        obtain ⟨ho, h4, -⟩ := hm
        rw [ho]
        have e : (strided s k l hk).drop p =
            ((strided s k l hk).take q).drop p ++ (strided s k l hk).drop q := by
          have := List.take_append_drop (q - p) ((strided s k l hk).drop p)
          rw [List.drop_drop, Nat.add_sub_cancel' h4] at this
          rw [List.drop_take, this]
        rw [e]
        exact (List.Sublist.refl _).append hi

/-- The order is lost in release builds: after an `advance` which wraps around, the first vector is
handed out again. -/
theorem C78_order_release : ∃ (os : List (IterOut (BitVec 8) 2))
    (it' : PackedStride (Slice (BitVec 8) 2) (BitVec 8) 2),
    runOps release64 (strideTwo (⟨[1#8, 2, 3, 4, 5]⟩ : Slice _ 2) (#v[0#8, 0], #v[0, 0])).1
      [.next, .advance (2 ^ 63 - 2), .next] = ok (os, it') ∧
    os.flatMap IterOut.delivered = [1, 3, 1, 3] := by
  refine ⟨[.vec (some #v[1, 3]), .unit, .vec (some #v[1, 3])],
    ⟨⟨[1#8, 2, 3, 4, 5]⟩, 4, 0, 2, #v[0, 0]⟩, ?_, ?_⟩ <;> decide +kernel

/-- An `advance` by 2^63 - 1 on `stride_two` over five elements makes the following `next` bad; by
2^63 it does not (the index is where it was). -/
example : BadStride release64 5 2 0 2 .next (2 ^ 64 - 2) ∧ ¬ BadStride release64 5 2 0 2 .next 0 ∧
    BadStride release64 5 2 0 2 .end_ 2 ∧ BadStride release64 5 2 0 2 (.load (2 ^ 63 - 1)) 0 := by
  refine ⟨⟨by decide +kernel, 0, by decide +kernel⟩, ?_,
    ⟨by decide +kernel, by decide +kernel, by decide +kernel⟩,
    ⟨by decide +kernel, 0, by decide +kernel⟩⟩
  rintro ⟨-, j, h1, h2⟩
  have : j = 0 ∨ j = 1 := by omega
  rcases this with rfl | rfl <;> revert h2 <;> decide +kernel

end
end Faster
