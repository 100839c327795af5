import Verif.EndBlend
import Verif.Props.Merge
import Verif.Props.Trace
/-
C80, C81: `end` on targets where `merge_partitioned` is the blend version.

As in `Verif/Props/Merge.lean`, lanes have `s` bytes (`n = 8 * s`), and
`64 % s = 0`, `w * s ≤ 64` hold for every vector type.
-/
namespace Faster
open Res SIMDSized SIMDIterable SIMDIterator

/-! ### C80: agreement with the fallback -/

section Agree
variable {T : Type} {n w s : Nat} [SIMDSized T] [SIMDIterable T (BitVec n) w]
  [SIMDArray T (BitVec n) w]

theorem endVecBlend_eq (c : Cfg) (hn : n = 8 * s) (hs : 0 < s) (hd : 64 % s = 0)
    (hws : w * s ≤ 64) (hc : 64 < c.usize) (t : T) (len pos : Nat) {e : Nat} (he : e < w) :
    endVecBlend c t len pos e = endVec c t len pos e := by
  unfold endVecBlend endVec
  have h : ∀ a b : Vector (BitVec n) w,
      mergePartitionedBlend c a b e = Packed.mergePartitioned c a b e := by
    intro a b
    rw [C35_partitioned_fallback c a b he, C35_partitioned_blend c hn hs hd hws hc a b (by omega)]
  simp only [h]

theorem endVecBlend_small (c : Cfg) (t : T) {len : Nat} (pos e : Nat) (hl : len ≤ w) :
    endVecBlend c t len pos e = endVec c t len pos e := by
  unfold endVecBlend endVec
  rw [if_neg (by omega), if_neg (by omega)]

/-- **C80**, the part which holds, for every iterator: `end` with the blend merge
and with the fallback do the same if at most one vector is left. Missing: more
than one vector left, in release builds (`C80_end_exact`, `C80_false`). -/
theorem C80_end_partial (c : Cfg) (hn : n = 8 * s) (hs : 0 < s) (hd : 64 % s = 0)
    (hws : w * s ≤ 64) (hc : 64 < c.usize) (t : T)
    (h : ∀ pos len, scalarPos c t = ok pos → scalarLen c t = ok len → pos < len →
      len ≤ pos + w) :
    blanketEndBlend c t = blanketEnd c t := by
  unfold blanketEndBlend blanketEnd
  cases h1 : scalarPos c t with
  | ok pos =>
    cases h2 : scalarLen c t with
    | ok len =>
      simp only [ok_bind]
      by_cases hlt : pos < len
      · have := h pos len h1 h2 hlt
        rw [if_pos hlt, if_pos hlt, usub_ok (by omega)]
        simp only [ok_bind]
        rw [usub_ok (by omega)]
        simp only [ok_bind, endVecBlend_eq c hn hs hd hws hc t len pos
          (show w - (len - pos) < w by omega)]
      · rw [if_neg hlt, if_neg hlt]
    | _ => rfl
  | _ => rfl

/-- **C80**, debug builds: they do the same, for every iterator in every state. -/
theorem C80_end_debug (c : Cfg) (hdbg : c.debug = true) (hn : n = 8 * s) (hs : 0 < s)
    (hd : 64 % s = 0) (hws : w * s ≤ 64) (hc : 64 < c.usize) (t : T) :
    blanketEndBlend c t = blanketEnd c t := by
  unfold blanketEndBlend blanketEnd
  cases h1 : scalarPos c t with
  | ok pos =>
    cases h2 : scalarLen c t with
    | ok len =>
      simp only [ok_bind]
      by_cases hlt : pos < len
      · rw [if_pos hlt, if_pos hlt, usub_ok (by omega)]
        simp only [ok_bind]
        by_cases hr : len - pos ≤ w
        · rw [usub_ok hr]
          simp only [ok_bind, endVecBlend_eq c hn hs hd hws hc t len pos
            (show w - (len - pos) < w by omega)]
        · simp [usub, hr, hdbg]
      · rw [if_neg hlt, if_neg hlt]
    | _ => rfl
  | _ => rfl

/-- **C80**, `end_unchecked`: the same if fewer lanes than a vector's are to be
filled with the default. -/
theorem C80_end_unchecked_partial (c : Cfg) (hn : n = 8 * s) (hs : 0 < s) (hd : 64 % s = 0)
    (hws : w * s ≤ 64) (hc : 64 < c.usize) (t : T) (offset : Nat) {e : Nat} (he : e < w) :
    endUncheckedBlend c t offset e = endUnchecked c t offset e := by
  unfold endUncheckedBlend endUnchecked
  simp only [endVecBlend_eq c hn hs hd hws hc t _ _ he]

/-- **C80**, `end_unchecked` in debug builds: the same in every state. -/
theorem C80_end_unchecked_debug (c : Cfg) (hdbg : c.debug = true) (hn : n = 8 * s) (hs : 0 < s)
    (hd : 64 % s = 0) (hws : w * s ≤ 64) (hc : 64 < c.usize) (t : T) (offset e : Nat) :
    endUncheckedBlend c t offset e = endUnchecked c t offset e := by
  by_cases he : e < w
  · exact C80_end_unchecked_partial c hn hs hd hws hc t offset he
  · unfold endUncheckedBlend endUnchecked
    cases h2 : scalarLen c t with
    | ok len =>
      simp only [ok_bind, hdbg, if_true, debugAssert, Faster.assert]
      by_cases hlt : offset < len
      · rw [usub_ok (show offset ≤ len by omega)]
        simp only [hlt, decide_true, if_true, ok_bind]
        by_cases hr : len - offset ≤ w
        · rw [usub_ok hr]
          have : ¬ e = w - (len - offset) := by omega
          simp [this]
        · simp [usub, hr, hdbg]
      · simp [hlt]
    | _ => rfl

end Agree

/-! ### C80: zips -/

/-- The smallest width among the iterators of a zip after the first, and lane
sizes as in the crate. -/
class BlendWidths (R : Type) {γ : Type} [BlendRest R γ] (w : Nat) : Prop where
  eq : ∀ (c : Cfg), 64 < c.usize → ∀ (r : R) (pos k : Nat), (c.debug = true ∨ k < w) →
    BlendRest.endAllBlend c r pos k = ZipRest.endAll c r pos k

theorem blendWidths_unit (w : Nat) : BlendWidths Unit w := ⟨fun _ _ _ _ _ _ => rfl⟩

theorem blendWidths_cons {T R γ : Type} {n w s w' : Nat} [SIMDSized T]
    [SIMDIterable T (BitVec n) w'] [SIMDArray T (BitVec n) w'] [BlendRest R γ]
    (hn : n = 8 * s) (hs : 0 < s) (hd : 64 % s = 0) (hws : w' * s ≤ 64) (hw : w ≤ w')
    (h : BlendWidths R w) : BlendWidths (T × R) w := by
  constructor
  intro c hc r pos k hk
  have h1 : endUncheckedBlend c r.1 pos k = endUnchecked c r.1 pos k := by
    rcases hk with hk | hk
    · exact C80_end_unchecked_debug c hk hn hs hd hws hc r.1 pos k
    · exact C80_end_unchecked_partial c hn hs hd hws hc r.1 pos (by omega)
  have h2 := h.eq c hc r.2 pos k hk
  simp only [BlendRest.endAllBlend, ZipRest.endAll, h1, h2]

/-- **C80**, zips of any number of iterators: in debug builds, and in release
builds when at most a vector of the first iterator is left and no other iterator
has narrower vectors, `end` of a zip does not depend on the target. -/
theorem C80_zip_partial {A R γ : Type} {n w s : Nat} [SIMDSized A] [SIMDArray A (BitVec n) w]
    [BlendRest R γ] (c : Cfg) (hn : n = 8 * s) (hs : 0 < s) (hd : 64 % s = 0) (hws : w * s ≤ 64)
    (hc : 64 < c.usize) (hR : BlendWidths R w) (z : Zip (SIMDIter A (BitVec n) w) R)
    (h : c.debug = true ∨ ∀ len, scalarLen c z.first.data = ok len → z.first.position < len →
      len ≤ z.first.position + w) :
    Zip.endBlend c z = Zip.end_ c z := by
  have h1 : blanketEndBlend c z.first = blanketEnd c z.first := by
    rcases h with h | h
    · exact C80_end_debug c h hn hs hd hws hc _
    · refine C80_end_partial c hn hs hd hws hc _ fun pos len hp hl hlt => ?_
      simp only [SIMDIterable.scalarPos, ok.injEq] at hp
      subst hp
      exact h len hl hlt
  have h0 : SIMDIterator.end_ c z.first = blanketEnd c z.first := rfl
  simp only [Zip.endBlend, Zip.end_, h0, h1, SIMDIterable.scalarPos, ok_bind]
  cases hb : blanketEnd c z.first with
  | ok r =>
    obtain ⟨r, first⟩ := r
    simp only [ok_bind]
    cases r with
    | none => rfl
    | some r =>
      obtain ⟨v, k⟩ := r
      have hk : c.debug = true ∨ k < w := by
        rcases h with h | h
        · exact .inl h
        · refine .inr ?_
          simp only [blanketEnd, SIMDIterable.scalarPos, ok_bind] at hb
          cases hl : scalarLen c z.first with
          | ok len =>
            simp only [hl, ok_bind] at hb
            by_cases hlt : z.first.position < len
            · have := h len hl hlt
              rw [if_pos hlt, usub_ok (by omega), ok_bind, usub_ok (by omega), ok_bind] at hb
              cases he : endVec c z.first len z.first.position (w - (len - z.first.position)) with
              | ok v' =>
                rw [he, ok_bind] at hb
                cases hf : finalize c z.first with
                | ok t =>
                  rw [hf, ok_bind] at hb
                  simp only [ok.injEq, Prod.mk.injEq, Option.some.injEq] at hb
                  omega
                | _ => rw [hf] at hb; simp at hb
              | _ => rw [he] at hb; simp at hb
            · rw [if_neg hlt] at hb
              simp at hb
          | _ => rw [hl] at hb; simp at hb
      simp only [hR.eq c hc z.rest z.first.position k hk]
  | _ => rfl

/-! ### C80: more than one vector left -/

section Exact
variable {n w s : Nat}

/-- Outcome of the blend merge for an offset that wrapped below zero by `k`. -/
theorem mergePartitionedBlend_wrapped (c : Cfg) (hdbg : c.debug = false) (hn : n = 8 * s)
    (hs : 0 < s) (hd : 64 % s = 0) (hws : w * s ≤ 64) (hw : 0 < w)
    (a b : Vector (BitVec n) w) {k : Nat} (hk : 0 < k) (hkc : k + 64 < c.usize) :
    mergePartitionedBlend c a b (c.usize - k) =
      if k + w ≤ 64 / s then ok b else if k + w + 64 / s ≤ 128 then ub else panic := by
  obtain ⟨hw', h128, h64⟩ := size_bound hs hd hws
  have h64' : 64 / s ≤ 64 := Nat.div_le_self _ _
  have hi : usub c (64 / s) (c.usize - k) = ok (64 / s + k) := by
    unfold usub
    rw [if_neg (by omega), hdbg]
    simp only [Bool.false_eq_true, if_false]
    rw [show c.usize + 64 / s - (c.usize - k) = 64 / s + k by omega, Nat.mod_eq_of_lt (by omega)]
  unfold mergePartitionedBlend
  rw [partitionMask_release c hdbg hn, hi, ok_bind]
  by_cases h1 : k + w ≤ 64 / s
  · rw [if_pos h1, loadPartMask_ok hn hd (by omega), ok_bind,
      blendLanes_select a b _ hn (fun _ => false) hs]
    · congr 1
      apply Vector.ext
      intro i hi
      simp [select]
    · intro i hi
      have : ¬ 64 / s + k + i < 64 / s := by omega
      simp [this]
  · rw [if_neg h1]
    by_cases h2 : k + w + 64 / s ≤ 128
    · rw [if_pos h2, loadPartMask_ub hn (by omega) (by omega) hw]
      rfl
    · rw [if_neg h2, loadPartMask_panic (by omega)]
      rfl

/-- **C80 is false, exactly**: `end` of an iterator over any array at any
position, with the blend merge. With more than one vector left in a release
build (third to fifth line) the fallback panics. -/
theorem C80_end_exact {A : Type} [SIMDSized A] [SIMDArray A (BitVec n) w] (c : Cfg)
    (hn : n = 8 * s) (hs : 0 < s) (hd : 64 % s = 0) (hws : w * s ≤ 64) (hw : 0 < w)
    (hc : 64 < c.usize) {a : A} {l : List (BitVec n)} (h : Represents c a l) (p : Nat)
    (d : Vector (BitVec n) w) (hu : l.length + 64 < c.usize) :
    blanketEndBlend c (⟨p, a, d⟩ : SIMDIter A (BitVec n) w) =
      if l.length ≤ p then ok (none, ⟨p, a, d⟩)
      else if hr : w < l.length - p then
        if c.debug then panic
        else if l.length - p ≤ 64 / s then
          ok (some (windowAt l (l.length - w) w (by omega), c.usize - (l.length - p - w)),
            ⟨l.length, a, d⟩)
        else if l.length - p + 64 / s ≤ 128 then ub
        else panic
      else if 0 < p ∧ l.length ≤ w then badAccess c
      else ok (some (padFront d (l.drop p), w - (l.length - p)), ⟨l.length, a, d⟩) := by
  obtain ⟨hw', h128, h64⟩ := size_bound hs hd hws
  have h64' : 64 / s ≤ 64 := Nat.div_le_self _ _
  have hex := simdIter_end_exact h p d (show l.length + w < c.usize by omega)
  have hend : end_ c (⟨p, a, d⟩ : SIMDIter A (BitVec n) w) =
      blanketEnd c (⟨p, a, d⟩ : SIMDIter A (BitVec n) w) := rfl
  rw [hend] at hex
  by_cases h1 : l.length ≤ p
  · rw [if_pos h1]
    rw [if_pos h1] at hex
    rw [← hex]
    refine C80_end_partial c hn hs hd hws hc _ fun pos len hp hl hlt => ?_
    have e1 : p = pos := by simpa [SIMDIterable.scalarPos] using hp
    have e2 : ok l.length = ok len := h.scalarLen.symm.trans hl
    simp only [ok.injEq] at e2
    omega
  · rw [if_neg h1]
    rw [if_neg h1] at hex
    by_cases h2 : w < l.length - p
    · rw [dif_pos h2]
      rw [if_pos h2] at hex
      cases hdbg : c.debug with
      | true =>
        simp only [if_true]
        rw [← hex]
        exact C80_end_debug c hdbg hn hs hd hws hc _
      | false =>
        simp only [Bool.false_eq_true, if_false]
        have hr := represents_iter h p d
        simp only [blanketEndBlend, SIMDIterable.scalarPos, hr.scalarLen, ok_bind]
        rw [if_pos (by omega), usub_ok (by omega), ok_bind]
        have hi : usub c w (l.length - p) = ok (c.usize - (l.length - p - w)) := by
          unfold usub
          rw [if_neg (by omega), hdbg]
          simp only [Bool.false_eq_true, if_false]
          rw [Nat.mod_eq_of_lt (by omega), show c.usize + w - (l.length - p) =
            c.usize - (l.length - p - w) by omega]
        have hf : finalize c (⟨p, a, d⟩ : SIMDIter A (BitVec n) w) = ok ⟨l.length, a, d⟩ := by
          simp only [finalize, hr.scalarLen, SIMDIterable.scalarPos, ok_bind]
          rw [usub_ok (by omega), ok_bind]
          simp only [SIMDIterable.advance, SIMDIter.advance]
          rw [uadd_ok (by omega), ok_bind, show p + (l.length - p) = l.length by omega]
        rw [hi, ok_bind, endVecBlend, if_pos (by omega), usub_ok (by omega), ok_bind,
          hr.loadUnchecked _ (by omega), ok_bind,
          mergePartitionedBlend_wrapped c hdbg hn hs hd hws hw _ _ (by omega) (by omega), hf]
        have e : l.length - p - w + w = l.length - p := by omega
        rw [e]
        by_cases h3 : l.length - p ≤ 64 / s
        · rw [if_pos h3, if_pos h3]; rfl
        · rw [if_neg h3, if_neg h3]
          by_cases h4 : l.length - p + 64 / s ≤ 128
          · rw [if_pos h4, if_pos h4]; rfl
          · rw [if_neg h4, if_neg h4]; rfl
    · rw [dif_neg h2]
      rw [if_neg h2] at hex
      rw [← hex]
      refine C80_end_partial c hn hs hd hws hc _ fun pos len hp hl hlt => ?_
      have e1 : p = pos := by simpa [SIMDIterable.scalarPos] using hp
      have e2 : ok l.length = ok len := h.scalarLen.symm.trans hl
      simp only [ok.injEq] at e2
      omega

end Exact

/-- **C80 is false**: on a fresh iterator over 20 `u32`s, in a release build,
`end` panics without SSE4.1 and reads beyond the mask table with it. -/
theorem C80_false : ∃ data : List (BitVec 32),
    blanketEnd release64 (simdIter data (Vector.replicate 4 0#32)) = panic ∧
    blanketEndBlend release64 (simdIter data (Vector.replicate 4 0#32)) = ub := by
  refine ⟨List.replicate 20 7#32, ?_, ?_⟩
  · exact simdIter_end_exact (represents_slice release64 _) 0 _ (by decide)
  · exact C80_end_exact (s := 4) release64 rfl (by decide) (by decide) (by decide) (by decide)
      (by decide) (represents_slice release64 (List.replicate 20 7#32)) 0 _ (by decide)

/-- **C80 is false** in another way: over 9 `u32`s the same call returns a vector
and claims that 2⁶⁴ - 5 of its 4 lanes are filled with the default. -/
theorem C80_wrong_count :
    blanketEndBlend release64 (simdIter [1#32, 2, 3, 4, 5, 6, 7, 8, 9] #v[0#32, 0, 0, 0]) =
      ok (some (#v[6#32, 7, 8, 9], 18446744073709551611),
        ⟨9, ⟨[1#32, 2, 3, 4, 5, 6, 7, 8, 9]⟩, #v[0#32, 0, 0, 0]⟩) := by
  decide +kernel

example : blanketEndBlend release64
    (⟨8, ⟨[1#32, 2, 3, 4, 5, 6, 7, 8, 9]⟩, #v[10#32, 20, 30, 40]⟩ :
      SIMDIter (Slice (BitVec 32) 4) (BitVec 32) 4) =
    ok (some (#v[10#32, 20, 30, 9], 3), ⟨9, ⟨[1#32, 2, 3, 4, 5, 6, 7, 8, 9]⟩, #v[10#32, 20, 30, 40]⟩) := by
  decide +kernel

example : blanketEndBlend debug64 (simdIter [1#32, 2, 3, 4, 5, 6, 7, 8, 9] #v[0#32, 0, 0, 0]) =
    panic := by decide +kernel

/-! ### C80: complete passes -/

section Pass
variable {T : Type} {n w s : Nat} [SIMDSized T] [SIMDIterator T (BitVec n) w]
  [SIMDArray T (BitVec n) w]

omit [SIMDArray T (BitVec n) w] in
theorem blend_next (c : Cfg) (t : T) :
    next c (⟨t⟩ : Blend T) = (do
      let (r, it) ← next c t
      ok (r, ⟨it⟩)) := rfl

theorem blend_runs {c : Cfg} {t : T} {vs : List (Vector (BitVec n) w)} {t' : T}
    (h : Runs c t vs (ok t')) : Runs c (⟨t⟩ : Blend T) vs (ok ⟨t'⟩) := by
  generalize hr : (ok t' : Res T) = r at h
  induction h with
  | done h =>
    cases hr
    exact .done (by rw [blend_next, h]; rfl)
  | fail h hne => 
    rename_i x
    cases x with
    | ok x => exact absurd rfl (hne x)
    | _ => cases hr
  | step h _ ih => exact .step (by rw [blend_next, h]; rfl) (ih hr)

end Pass

section Pass
variable {A : Type} {n w s : Nat} [SIMDSized A] [SIMDArray A (BitVec n) w]

/-- **C80**, complete passes: `next` until `None` and then `end` produce, with
the blend merge, the full groups and the padded rest, in every build. -/
theorem C80_pass (c : Cfg) (hn : n = 8 * s) (hs : 0 < s) (hd : 64 % s = 0) (hws : w * s ≤ 64)
    (hc : 64 < c.usize) {a : A} {l : List (BitVec n)} (h : Represents c a l)
    (d : Vector (BitVec n) w) (hw : 0 < w) (hu : l.length + w < c.usize) :
    Emits c (⟨⟨0, a, d⟩⟩ : Blend (SIMDIter A (BitVec n) w)) (fullWindows w l)
      (ok (tailOf d l, ⟨⟨l.length, a, d⟩⟩)) := by
  obtain ⟨r, hr, he⟩ := simdIter_emits h d hw hu
  have hr' := simdIter_runs h d hw hu 0 (by omega)
  have hrr := (Runs.unique hr (by simpa using hr')).2
  subst hrr
  refine ⟨_, blend_runs hr, ?_⟩
  simp only [ok_bind] at he ⊢
  have hm := Nat.mod_lt l.length hw
  have e := Nat.div_add_mod l.length w
  rw [Nat.mul_comm] at e
  have hb : blanketEndBlend c (⟨l.length / w * w, a, d⟩ : SIMDIter A (BitVec n) w) =
      blanketEnd c (⟨l.length / w * w, a, d⟩ : SIMDIter A (BitVec n) w) := by
    refine C80_end_partial c hn hs hd hws hc _ fun pos len hp hl hlt => ?_
    have e1 : l.length / w * w = pos := by simpa [SIMDIterable.scalarPos] using hp
    have e2 : ok l.length = ok len := h.scalarLen.symm.trans hl
    simp only [ok.injEq] at e2
    omega
  have h2 : blanketEnd c (⟨l.length / w * w, a, d⟩ : SIMDIter A (BitVec n) w) =
      ok (tailOf d l, ⟨l.length, a, d⟩) := he.symm
  simp only [SIMDIterator.end_, hb, h2, ok_bind]

/-- **C80**, reductions with the blend merge: the fold of `C03_reduce_fold`. -/
theorem C80_reduce {B σ : Type} (c : Cfg) (hn : n = 8 * s) (hs : 0 < s) (hd : 64 % s = 0)
    (hws : w * s ≤ 64) (hc : 64 < c.usize) (fuel : Nat) (data : List (BitVec n))
    (d : Vector (BitVec n) w) (start : B) (st : σ)
    (f : σ → B → Vector (BitVec n) w → Res (B × σ)) (hw : 0 < w)
    (hu : data.length + w < c.usize) (hfuel : data.length / w < fuel) :
    simdReduce c fuel (⟨simdIter data d⟩ : Blend (SIMDIter (Slice (BitVec n) w) (BitVec n) w))
        start st f = (do
      let (acc, st') ← (calls w d data).foldlM (fun (acc, st) v => f st acc v) (start, st)
      ok (⟨⟨data.length, ⟨data⟩, d⟩⟩, acc, st')) := by
  have he := C80_pass c hn hs hd hws hc (represents_slice (w := w) c data) d hw hu
  rw [simdIter, simdReduce_emits f he fuel start st (by rw [fullWindows_length]; omega),
    withTail_tailOf]

/-- **C80**, collecting any mapped pipeline with the blend merge: the same values
as `C05_collect_any_closure` states for the fallback. -/
theorem C80_collect {β σ : Type} [Packable (BitVec n)] [Packable β] {w' : Nat} (c : Cfg)
    (hn : n = 8 * s) (hs : 0 < s) (hd : 64 % s = 0) (hws : w * s ≤ 64) (hc : 64 < c.usize)
    (fuel : Nat) (data : List (BitVec n)) (d : Vector (BitVec n) w) (st : σ)
    (f : FnMut σ (Vector (BitVec n) w) (Vector β w'))
    (hw : 0 < w) (hw' : 0 < w') (hsb : 0 < Packable.size β)
    (hsize : w * Packable.size (BitVec n) = w' * Packable.size β)
    (hlen : data.length + w < c.usize) (hlen' : (data.length / w + 1) * w' < c.usize)
    (hvec : w * Packable.size (BitVec n) < c.usize) (hfuel : data.length / w < fuel) :
    scalarCollect c fuel (simdMap
        (⟨simdIter data d⟩ : Blend (SIMDIter (Slice (BitVec n) w) (BitVec n) w)) st f) = (do
      let (outs, st') ← callAll f st (calls w d data)
      ok (⟨⟨⟨data.length, ⟨data⟩, d⟩⟩, st', f⟩,
        (unpad ((w - data.length % w) % w * Packable.size (BitVec n) / Packable.size β)
          outs).map some)) := by
  have he := C80_pass c hn hs hd hws hc (represents_slice (w := w) c data) d hw hlen
  have hl := fullWindows_length w data
  have hb : ∀ q, SIMDIterable.len c (⟨⟨q, ⟨data⟩, d⟩⟩ :
      Blend (SIMDIter (Slice (BitVec n) w) (BitVec n) w)) = ok (data.length / w) :=
    fun q => simdIter_len c hw data d q
  rw [simdIter, scalarCollect_map f he hw' hsb (hb 0) (by omega)
    (fun _ => by rw [hb, hl]) _ hlen' fuel (by omega) st,
    withTail_tailOf, padOf_tailOf hw]
  intro p k hpn
  obtain ⟨hk, -, hkw, -⟩ := tailOf_some hw hpn
  have h1 : k * Packable.size (BitVec n) ≤ w * Packable.size (BitVec n) :=
    Nat.mul_le_mul_right _ (by omega)
  refine ⟨by omega, ?_⟩
  rw [hsize] at h1
  exact Nat.div_le_of_le_mul (by rw [Nat.mul_comm (Packable.size β)]; exact h1)

end Pass

example : (do
    let (_, out) ← scalarCollect release64 5
      (simdMap (⟨simdIter (w := 4) [1#32, 2, 3, 4, 5] (Vector.replicate 4 9#32)⟩ :
          Blend (SIMDIter (Slice (BitVec 32) 4) (BitVec 32) 4)) ()
        (pureFn (Vector.map (· + 1#32))))
    ok out) = ok ([2#32, 3, 4, 5, 6].map some) := by decide +kernel

end Faster
