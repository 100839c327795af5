import Verif.Lemmas.Zip
import Verif.Lemmas.Stride
import Verif.Props.Collect
/-
C130: maps whose closure returns vectors of another total size than its argument. The bound
`A : Packed<Scalar = B>` of `simd_map` (src/iters.rs:85-86) and of `SIMDZippedIterator::simd_map`
allows any vector type, for instance `f64x4` to `f32x4` on AVX2. `end` computes the number of
empty output lanes from the sizes of the scalars alone (src/iters.rs:674, src/zip.rs:368).
-/
namespace Faster
open Res SIMDSized SIMDIterable SIMDIterator

/-! ### Stores of a last vector with more empty lanes than lanes -/

/-- What the buffer holds when the number `n` of empty lanes of the last vector exceeds the number
of its lanes: the last vector is stored `n` places before the end of the earlier results, and only
the last one of these is repaired. -/
def clobber {β : Type} {w : Nat} (n : Nat) (outs : List (Vector β w)) : List β :=
  let full := lanes outs.dropLast
  splice full (full.length - n) (((lanes outs).drop full.length).take (n - w))

theorem clobber_concat {β : Type} {w : Nat} (n : Nat) (vs : List (Vector β w)) (p : Vector β w) :
    clobber n (vs ++ [p]) = splice (lanes vs) (vs.length * w - n) (p.toList.take (n - w)) := by
  simp [clobber, lanes_append, lanes_length]

theorem clobber_length {β : Type} {w : Nat} (n : Nat) (vs : List (Vector β w)) (p : Vector β w)
    (hn : n ≤ vs.length * w) : (clobber n (vs ++ [p])).length = vs.length * w := by
  rw [clobber_concat, splice_length, lanes_length]
  rw [lanes_length, List.length_take]
  omega

section
variable {β : Type} {w : Nat}

theorem fillTailLoop_over {κ : Type} (c : Cfg) (inj : β → κ) (p : Vector β w) (n o k : Nat) (buf : List κ)
    (hn : w ≤ n) (hu : n < c.usize) : fillTailLoop c inj p n o (k + 1) 0 buf = badAccess c := by
  simp only [fillTailLoop]
  rw [uadd_ok (by omega)]
  have h : ¬ n < w := by omega
  simp only [ok_bind, Nat.zero_add, Packed.extractUnchecked, h, decide_false, badAccess]
  cases hd : c.debug <;> simp [debugAssert, assert, hd]

theorem storeUnchecked_far {κ : Type} {c : Cfg} {v : Vector κ w} {l : List κ} {o : Nat}
    (h : l.length < o) : Packed.storeUnchecked c v l o = panic := by
  have h2 : ¬ o ≤ l.length := by omega
  simp only [Packed.storeUnchecked, sliceFrom, if_neg h2]
  split <;> rfl

/-- The tail store with more empty lanes than lanes. -/
theorem fillTail_over {κ : Type} (c : Cfg) (inj : β → κ) (p : Vector β w) (n : Nat)
    (vs : List (Vector β w)) (d : Vector β w) (buf : List κ) (hw : 0 < w) (hn : w < n)
    (hb : vs.length * w ≤ buf.length) (hu : buf.length + n < c.usize) :
    fillTail c inj p n (vs.length * w) (vs.getLastD d) (splice buf 0 ((lanes vs).map inj)) =
      if vs = [] then badAccess c else if vs.length * w < n then panic else
        ok (splice buf 0 ((clobber n (vs ++ [p])).map inj)) := by
  have ll := lanes_length vs
  have hl : (splice buf 0 ((lanes vs).map inj)).length = buf.length :=
    splice_length _ _ _ (by simp [ll]; omega)
  by_cases hv : vs = []
  · subst hv
    simp only [fillTail, List.length_nil, Nat.zero_mul, if_true, Nat.lt_irrefl, if_false, gt_iff_lt]
    have h1 : ¬ n ≤ w := by omega
    simp only [usub, if_neg h1]
    cases hd : c.debug
    · simp only [Bool.false_eq_true, if_false, ok_bind]
      rw [Nat.mod_eq_of_lt (by omega),
        show c.usize + w - n = (c.usize + w - n - 1) + 1 by omega]
      exact fillTailLoop_over c inj p n 0 _ _ (by omega) (by omega)
    · simp [badAccess, hd]
  · have hpos : 0 < vs.length := List.length_pos_iff.mpr hv
    have hge : w ≤ vs.length * w := Nat.le_mul_of_pos_left w hpos
    rw [if_neg hv]
    simp only [fillTail]
    rw [if_pos (by omega)]
    by_cases h1 : vs.length * w < n
    · rw [if_pos h1]
      have h2 : ¬ n ≤ vs.length * w := by omega
      simp only [usub, if_neg h2]
      cases hd : c.debug
      · simp only [Bool.false_eq_true, if_false, ok_bind]
        rw [Nat.mod_eq_of_lt (by omega), storeUnchecked_far (by omega)]
        rfl
      · rfl
    · rw [if_neg h1, usub_ok (by omega), usub_ok (by omega)]
      simp only [ok_bind]
      rw [storeUnchecked_ok (by omega)]
      simp only [ok_bind]
      have hl2 : (splice (splice buf 0 ((lanes vs).map inj)) (vs.length * w - n)
          (Vector.map inj p).toList).length = buf.length := by
        rw [splice_length _ _ _ (by simp; omega), hl]
      rw [storeUnchecked_ok (by omega)]
      congr 1
      have hlast := getLastD_lanes vs d hv
      have hdl : (lanes vs.dropLast).length = vs.length * w - w := by
        rw [lanes_length, List.length_dropLast, Nat.sub_mul, Nat.one_mul]
      have hcl := clobber_length n vs p (by omega)
      apply List.ext_getElem?
      intro j
      rw [splice_getElem? _ _ _ (by simp; omega), splice_getElem? _ _ _ (by simp; omega),
        splice_getElem? _ _ _ (by simp; omega), splice_getElem? _ _ _ (by simp [hcl]; omega)]
      rw [clobber_concat]
      simp only [Vector.toList_map, List.length_map, Vector.length_toList, ll,
        List.getElem?_map, Nat.not_lt_zero, if_false, Nat.zero_add, Nat.sub_zero]
      rw [splice_length _ _ _ (by simp [ll]; omega), ll,
        splice_getElem? _ _ _ (by simp [ll]; omega)]
      simp only [List.length_take, Vector.length_toList]
      by_cases h3 : j < vs.length * w - w
      · have h2 : j < vs.length * w := by omega
        by_cases h4 : j < vs.length * w - n
        · simp only [h2, h3, h4, if_true]
        · by_cases h5 : j < vs.length * w - n + w
          · have h6 : j < vs.length * w - n + min (n - w) w := by omega
            simp only [h2, h3, h4, h5, h6, if_true, if_false]
            rw [List.getElem?_take, if_pos (by omega)]
          · have h6 : ¬ j < vs.length * w - n + min (n - w) w := by omega
            simp only [h2, h3, h4, h5, h6, if_true, if_false]
      · have h4 : ¬ j < vs.length * w - n := by omega
        have h6 : ¬ j < vs.length * w - n + min (n - w) w := by omega
        by_cases h2 : j < vs.length * w
        · have h7 : j < vs.length * w - w + w := by omega
          simp only [h2, h3, h4, h6, h7, if_true, if_false]
          conv => rhs; rw [hlast]
          rw [List.getElem?_append_right (by omega), hdl]
        · have h7 : ¬ j < vs.length * w - w + w := by omega
          have h8 : ¬ j < vs.length * w - n + w := by omega
          simp only [h2, h3, h4, h7, h8, if_false]

end

section
variable {I β : Type} {w : Nat} [SIMDSized I] [SIMDIterator I β w] [Packable β]

theorem scalarFill_emits_over {c : Cfg} {it it' : I} {vs : List (Vector β w)} {p : Vector β w} {n : Nat}
    (h : Emits c it vs (ok (some (p, n), it'))) (fuel : Nat) (buf : List β) (hf : vs.length < fuel)
    (hw : 0 < w) (hn : w < n) (hb : vs.length * w ≤ buf.length) (hu : buf.length + n < c.usize) :
    scalarFill c fuel it buf = if vs = [] then badAccess c else if vs.length * w < n then panic else
      ok (it', splice buf 0 (clobber n (vs ++ [p]))) := by
  obtain ⟨r, h1, h2⟩ := h
  simp only [scalarFill]
  rw [fillLoop_runs id h1 fuel buf 0 _ hf (by omega) (by omega)]
  cases r with
  | ok it1 =>
    simp only [ok_bind] at h2
    simp only [ok_bind, ← h2]
    have := fillTail_over c id p n vs Packed.default buf hw hn hb hu
    simp only [List.map_id] at this
    simp only [Nat.zero_add, List.map_id, this]
    split
    · simp
    · split <;> simp
  | _ => simp at h2

theorem scalarCollect_emits_over {c : Cfg} {it it' : I} {vs : List (Vector β w)} {p : Vector β w} {n : Nat}
    (h : Emits c it vs (ok (some (p, n), it'))) (fuel : Nat) (hf : vs.length < fuel)
    (hw : 0 < w) (hn : w < n) (hL : SIMDIterable.len c it = ok vs.length)
    (hu : (vs.length + 1) * w + n < c.usize) :
    scalarCollect c fuel it = if vs = [] then badAccess c else if vs.length * w < n then panic else
      ok (it', ((clobber n (vs ++ [p])).take (vs.length * w + w - n)).map some) := by
  obtain ⟨r, h1, h2⟩ := h
  have hL1 : vs.length + 1 ≤ (vs.length + 1) * w := Nat.le_mul_of_pos_right _ hw
  have e1 : (vs.length + 1) * w = vs.length * w + w := Nat.succ_mul _ w
  simp only [scalarCollect, hL, ok_bind]
  rw [uadd_ok (by omega)]
  simp only [ok_bind]
  rw [umul_ok (by omega)]
  have e0 : (RVec.withCapacity ((vs.length + 1) * w) : RVec β).setLen ((vs.length + 1) * w) =
      ok ⟨List.replicate ((vs.length + 1) * w) none, (vs.length + 1) * w⟩ := by
    simp [RVec.setLen, RVec.withCapacity]
  have e2 : (⟨List.replicate ((vs.length + 1) * w) none, (vs.length + 1) * w⟩ : RVec β).slice =
      List.replicate ((vs.length + 1) * w) none := by
    simp [RVec.slice]
  simp only [ok_bind]
  rw [e0]
  simp only [ok_bind, e2]
  rw [fillLoop_runs some h1 fuel _ 0 _ hf (by simp; omega) (by omega)]
  cases r with
  | ok it1 =>
    simp only [ok_bind] at h2
    simp only [ok_bind, ← h2, Nat.zero_add]
    rw [fillTail_over c some p n vs Packed.default _ hw hn (by simp; omega) (by simp; omega)]
    split
    · simp
    · split
      · simp
      · have hcl := clobber_length n vs p (by omega)
        simp only [ok_bind]
        rw [uadd_ok (by omega)]
        simp only [ok_bind]
        rw [usub_ok (by omega)]
        simp only [ok_bind, splice_zero, List.length_map, hcl]
        have hle : w + vs.length * w - n ≤ vs.length * w := by omega
        simp only [RVec.setLen, RVec.putSlice, RVec.slice, List.length_append, List.length_map, hcl,
          List.length_drop, List.length_replicate]
        rw [if_pos (by omega)]
        simp only [ok_bind]
        rw [List.append_assoc, List.take_append_of_le_length (by simp [hcl]; omega), List.map_take,
          Nat.add_comm w]
  | _ => simp at h2

/-! ### Maps -/

variable {δ σ : Type}

/-- A map of any source, whose closure may panic. -/
theorem collect_over {c : Cfg} (f : FnMut σ δ (Vector β w)) (st : σ) (vs : List δ) (p : δ) (n : Nat)
    (mk : σ → I) {m : I}
    (h : Emits c m (mapRun f st vs).1 ((mapRun f st vs).2 >>= fun st' =>
      f st' p >>= fun q => ok (some (q.1, n), mk q.2)))
    (fuel : Nat) (hf : vs.length < fuel) (hw : 0 < w) (hn : w < n)
    (hL : SIMDIterable.len c m = ok vs.length) (hu : (vs.length + 1) * w + n < c.usize) :
    scalarCollect c fuel m = callAll f st (vs ++ [p]) >>= fun q =>
      if vs.length = 0 then badAccess c else if vs.length * w < n then panic else
      ok (mk q.2, ((clobber n q.1).take (vs.length * w + w - n)).map some) := by
  have hle := mapRun_length_le f st vs
  rw [callAll_append, callAll_mapRun f st vs]
  cases hr : (mapRun f st vs).2 with
  | ok st' =>
    have hl := mapRun_length f st st' vs hr
    simp only [hr, ok_bind] at h
    simp only [ok_bind, callAll]
    cases hp : f st' p with
    | ok q =>
      simp only [hp, ok_bind] at h
      simp only [ok_bind]
      rw [scalarCollect_emits_over h fuel (by omega) hw hn (by rw [hl]; exact hL) (by rw [hl]; exact hu),
        hl]
      simp only [← List.length_eq_zero_iff, hl]
    | _ =>
      rw [hp] at h
      rw [scalarCollect_emits h fuel (by omega) hw hL (by omega) (by omega) (by intros; simp at *)
        (by intros; simp at *)]
      rfl
  | _ =>
    rw [hr] at h
    rw [scalarCollect_emits h fuel (by omega) hw hL (by omega) (by omega) (by intros; simp at *)
      (by intros; simp at *)]
    rfl

theorem fill_over {c : Cfg} (f : FnMut σ δ (Vector β w)) (st : σ) (vs : List δ) (p : δ) (n : Nat)
    (mk : σ → I) {m : I}
    (h : Emits c m (mapRun f st vs).1 ((mapRun f st vs).2 >>= fun st' =>
      f st' p >>= fun q => ok (some (q.1, n), mk q.2)))
    (fuel : Nat) (buf : List β) (hf : vs.length < fuel) (hw : 0 < w) (hn : w < n)
    (hb : vs.length * w ≤ buf.length) (hu : buf.length + n < c.usize) :
    scalarFill c fuel m buf = callAll f st (vs ++ [p]) >>= fun q =>
      if vs.length = 0 then badAccess c else if vs.length * w < n then panic else
      ok (mk q.2, splice buf 0 (clobber n q.1)) := by
  have hle := mapRun_length_le f st vs
  have hmul : (mapRun f st vs).1.length * w ≤ vs.length * w := Nat.mul_le_mul_right w hle
  rw [callAll_append, callAll_mapRun f st vs]
  cases hr : (mapRun f st vs).2 with
  | ok st' =>
    have hl := mapRun_length f st st' vs hr
    simp only [hr, ok_bind] at h
    simp only [ok_bind, callAll]
    cases hp : f st' p with
    | ok q =>
      simp only [hp, ok_bind] at h
      simp only [ok_bind]
      rw [scalarFill_emits_over h fuel buf (by omega) hw hn (by rw [hl]; exact hb) hu, hl]
      simp only [← List.length_eq_zero_iff, hl]
    | _ =>
      rw [hp] at h
      rw [scalarFill_emits h fuel buf (by omega) hw (by omega) (by omega) (by intros; simp at *)]
      rfl
  | _ =>
    rw [hr] at h
    rw [scalarFill_emits h fuel buf (by omega) hw (by omega) (by omega) (by intros; simp at *)]
    rfl

end

theorem tailFrom_rest {α : Type} {w : Nat} (hw : 0 < w) (d : Vector α w) (l : List α) {n : Nat}
    (hc : Driver.count w l n) (hr : l.length % w ≠ 0) :
    n = l.length / w ∧
      tailFrom d l n = some (padFront d (leftover w l), w - l.length % w) := by
  have hn : n = l.length / w := by
    rcases hc with h | h
    · exact h
    · exact absurd h.1 hr
  have h1 := Nat.div_add_mod l.length w
  rw [Nat.mul_comm] at h1
  subst hn
  refine ⟨rfl, ?_⟩
  rw [tailFrom, if_pos (by omega)]
  simp only [leftover, Option.some.injEq, Prod.mk.injEq, true_and]
  omega

theorem calls_rest {α : Type} {w : Nat} (d : Vector α w) (l : List α) (hr : l.length % w ≠ 0) :
    calls w d l = fullWindows w l ++ [padFront d (leftover w l)] := by
  rw [calls, if_neg hr]

/-! ### C130 -/

section
variable {I α β σ : Type} {w w' : Nat} [SIMDSized I] [SIMDIterator I α w] [Packable α] [Packable β]
  {c : Cfg} {S : Nat → I} {l : List α} {d : Vector α w} {more : Nat → Prop}

/-- **C130**, `scalar_collect` of a map of a slice or strided iterator, any closure and any vector
type, as long as the last vector has not more empty lanes than lanes: all lanes of all results
except the first `pad * size α / size β` lanes of the last one. -/
theorem C130_collect (h : Driver c S l d more) (fuel : Nat) (st : σ)
    (f : FnMut σ (Vector α w) (Vector β w')) (hw : 0 < w) (hw' : 0 < w') (hs : 0 < Packable.size β)
    (hpad : (w - l.length % w) % w * Packable.size α / Packable.size β ≤ w')
    (hlen' : (l.length / w + 1) * w' < c.usize)
    (hvec : w * Packable.size α < c.usize) (hfuel : l.length / w < fuel) :
    scalarCollect c fuel (simdMap (S 0) st f) = (do
      let (outs, st') ← callAll f st (calls w d l)
      ok (⟨S l.length, st', f⟩,
        (unpad ((w - l.length % w) % w * Packable.size α / Packable.size β) outs).map some)) := by
  obtain ⟨n, hc, he⟩ := h.emits hw
  obtain ⟨h1, h2, h3, h4⟩ := Driver.count_cases hw hc
  have hp := padOf_tailFrom hw d l hc
  have hl : ((fullWindows w l).take n).length = n := by
    rw [List.length_take, fullWindows_length]; omega
  rw [scalarCollect_map f he hw' hs (h.len 0) (by omega) _ _ hlen' fuel (by omega) st,
    withTail_tailFrom hw d l hc, hp]
  · intro ht
    rw [h.len, hl, h4]
    unfold tailFrom at ht
    split at ht
    · cases ht
    · omega
  · intro p m hpm
    have h5 := tailFrom_some hpm
    have h6 : m * Packable.size α ≤ w * Packable.size α := Nat.mul_le_mul_right _ h5
    rw [hpm] at hp
    simp only [padOf, Option.map_some, Option.getD_some] at hp
    exact ⟨by omega, by rw [hp]; exact hpad⟩

/-- **C130**, `scalar_fill`. -/
theorem C130_fill (h : Driver c S l d more) (fuel : Nat) (st : σ)
    (f : FnMut σ (Vector α w) (Vector β w')) (buf : List β)
    (hw : 0 < w) (hw' : 0 < w') (hs : 0 < Packable.size β)
    (hpad : (w - l.length % w) % w * Packable.size α / Packable.size β ≤ w')
    (hbuf : (l.length + (w - 1)) / w * w' ≤
      buf.length + (w - l.length % w) % w * Packable.size α / Packable.size β)
    (hlen' : (l.length / w + 1) * w' < c.usize)
    (hvec : w * Packable.size α < c.usize) (hfuel : l.length / w < fuel) :
    scalarFill c fuel (simdMap (S 0) st f) buf = (do
      let (outs, st') ← callAll f st (calls w d l)
      ok (⟨S l.length, st', f⟩,
        splice buf 0 (unpad ((w - l.length % w) % w * Packable.size α / Packable.size β) outs))) := by
  obtain ⟨n, hc, he⟩ := h.emits hw
  obtain ⟨h1, h2, h3, h4⟩ := Driver.count_cases hw hc
  have hp := padOf_tailFrom hw d l hc
  have hl : ((fullWindows w l).take n).length = n := by
    rw [List.length_take, fullWindows_length]; omega
  have hnw : (n + 1) * w' ≤ (l.length / w + 1) * w' := Nat.mul_le_mul_right _ (by omega)
  have hceil : l.length ≤ n * w ∧ (l.length + (w - 1)) / w = n ∨
      n * w < l.length ∧ (l.length + (w - 1)) / w = n + 1 := by
    rcases Nat.lt_or_ge (n * w) l.length with h5 | h5
    · right
      refine ⟨h5, ?_⟩
      rw [Nat.div_eq_of_lt_le] <;> (try simp only [Nat.succ_mul]) <;> omega
    · left
      refine ⟨h5, ?_⟩
      rw [Nat.div_eq_of_lt_le] <;> (try simp only [Nat.succ_mul]) <;> omega
  rw [scalarFill_map f he hw' hs buf _ _ (by rw [hl]; omega) fuel (by omega) st,
    withTail_tailFrom hw d l hc, hp]
  · rw [hl]
    rcases hceil with ⟨h5, h6⟩ | ⟨h5, h6⟩
    · have : (w - l.length % w) % w = 0 := by
        rw [show l.length = n * w by omega, Nat.mul_mod_left, Nat.sub_zero, Nat.mod_self]
      rw [h6, this, Nat.zero_mul, Nat.zero_div] at hbuf
      omega
    · rw [h6, Nat.succ_mul] at hbuf
      omega
  · intro p m hpm
    have h5 := tailFrom_some hpm
    have h6 : m * Packable.size α ≤ w * Packable.size α := Nat.mul_le_mul_right _ h5
    have h7 : n * w < l.length := by
      unfold tailFrom at hpm
      split at hpm
      · assumption
      · cases hpm
    rw [hpm] at hp
    simp only [padOf, Option.map_some, Option.getD_some] at hp
    refine ⟨by omega, by rw [hp]; exact hpad, ?_⟩
    rw [hl, hp]
    rcases hceil with ⟨h8, -⟩ | ⟨-, h8⟩
    · omega
    · rw [h8, Nat.succ_mul] at hbuf
      exact hbuf

/-- **C130**, `scalar_collect`, exactly when the last vector has more empty lanes than lanes: reads
a lane which does not exist if there is no full vector (a panic in debug builds); panics if the
empty lanes reach before the start of the results; otherwise drops results and overwrites others
with empty lanes. -/
theorem C130_collect_over (h : Driver c S l d more) (fuel : Nat) (st : σ)
    (f : FnMut σ (Vector α w) (Vector β w')) (hw : 0 < w) (hw' : 0 < w') (hs : 0 < Packable.size β)
    (n : Nat) (hn : n = (w - l.length % w) % w * Packable.size α / Packable.size β) (hover : w' < n)
    (hlen' : (l.length / w + 1) * w' + w * Packable.size α < c.usize) (hfuel : l.length / w < fuel) :
    scalarCollect c fuel (simdMap (S 0) st f) = (do
      let (outs, st') ← callAll f st (calls w d l)
      if l.length < w then badAccess c
      else if l.length / w * w' < n then panic
      else ok (⟨S l.length, st', f⟩,
        ((clobber n outs).take (l.length / w * w' + w' - n)).map some)) := by
  have hm := Nat.mod_lt l.length hw
  have hr : l.length % w ≠ 0 := by
    intro e
    rw [e, Nat.sub_zero, Nat.mod_self, Nat.zero_mul, Nat.zero_div] at hn
    omega
  rw [Nat.mod_eq_of_lt (by omega)] at hn
  obtain ⟨k, hc, he⟩ := h.emits hw
  obtain ⟨rfl, ht⟩ := tailFrom_rest hw d l hc hr
  have hl := fullWindows_length w l
  have h6 : (w - l.length % w) * Packable.size α ≤ w * Packable.size α := Nat.mul_le_mul_right _ (by omega)
  have hn2 : n ≤ w * Packable.size α := by
    rw [hn]; exact Nat.le_trans (Nat.div_le_self _ _) h6
  rw [List.take_of_length_le (by omega), ht] at he
  have hm := simdMap_emits f he hs (by rintro p n e; cases e; omega) st
  simp only [mapTail, ← hn] at hm
  have := collect_over f st (fullWindows w l) _ n (fun s => (⟨S l.length, s, f⟩ : SIMDMap I σ α w β w'))
    hm fuel (by omega) hw' hover (by rw [hl]; exact h.len 0) (by rw [hl]; omega)
  rw [calls_rest d l hr]
  refine this.trans ?_
  congr 1
  funext q
  rw [hl]
  have : l.length / w = 0 ↔ l.length < w := by rw [Nat.div_eq_zero_iff]; omega
  simp only [this]

/-- **C130**, `scalar_fill`, exactly when the last vector has more empty lanes than lanes. -/
theorem C130_fill_over (h : Driver c S l d more) (fuel : Nat) (st : σ)
    (f : FnMut σ (Vector α w) (Vector β w')) (buf : List β)
    (hw : 0 < w) (hw' : 0 < w') (hs : 0 < Packable.size β)
    (n : Nat) (hn : n = (w - l.length % w) % w * Packable.size α / Packable.size β) (hover : w' < n)
    (hbuf : l.length / w * w' ≤ buf.length)
    (hlen' : buf.length + w * Packable.size α < c.usize) (hfuel : l.length / w < fuel) :
    scalarFill c fuel (simdMap (S 0) st f) buf = (do
      let (outs, st') ← callAll f st (calls w d l)
      if l.length < w then badAccess c
      else if l.length / w * w' < n then panic
      else ok (⟨S l.length, st', f⟩, splice buf 0 (clobber n outs))) := by
  have hm := Nat.mod_lt l.length hw
  have hr : l.length % w ≠ 0 := by
    intro e
    rw [e, Nat.sub_zero, Nat.mod_self, Nat.zero_mul, Nat.zero_div] at hn
    omega
  rw [Nat.mod_eq_of_lt (by omega)] at hn
  obtain ⟨k, hc, he⟩ := h.emits hw
  obtain ⟨rfl, ht⟩ := tailFrom_rest hw d l hc hr
  have hl := fullWindows_length w l
  have h6 : (w - l.length % w) * Packable.size α ≤ w * Packable.size α := Nat.mul_le_mul_right _ (by omega)
  have hn2 : n ≤ w * Packable.size α := by
    rw [hn]; exact Nat.le_trans (Nat.div_le_self _ _) h6
  rw [List.take_of_length_le (by omega), ht] at he
  have hm := simdMap_emits f he hs (by rintro p n e; cases e; omega) st
  simp only [mapTail, ← hn] at hm
  have := fill_over f st (fullWindows w l) _ n (fun s => (⟨S l.length, s, f⟩ : SIMDMap I σ α w β w'))
    hm fuel buf (by omega) hw' hover (by rw [hl]; exact hbuf) (by omega)
  rw [calls_rest d l hr]
  refine this.trans ?_
  congr 1
  funext q
  rw [hl]
  have : l.length / w = 0 ↔ l.length < w := by rw [Nat.div_eq_zero_iff]; omega
  simp only [this]


/-- **C130.** A lane-wise map with as many output lanes as input lanes collects the results of the
elements exactly if there is no remainder or the computed number of empty lanes happens to be
right. -/
theorem C130_lanewise_iff (h : Driver c S l d more) (fuel : Nat) (g : α → β)
    (hw : 0 < w) (hs : 0 < Packable.size β)
    (hlen' : (l.length / w + 1) * w + w * Packable.size α < c.usize) (hfuel : l.length / w < fuel) :
    (∃ it', scalarCollect c fuel (simdMap (S 0) () (pureFn (Vector.map g))) =
        ok (it', (l.map g).map some)) ↔
      (w - l.length % w) % w * Packable.size α / Packable.size β = (w - l.length % w) % w := by
  have hm := Nat.mod_lt l.length hw
  have hdm := Nat.div_add_mod l.length w
  rw [Nat.mul_comm] at hdm
  have hpw : (w - l.length % w) % w < w := Nat.mod_lt _ hw
  generalize hn : (w - l.length % w) % w * Packable.size α / Packable.size β = n
  by_cases hover : w < n
  · rw [C130_collect_over h fuel () _ hw hw hs n hn.symm hover hlen' hfuel, callAll_pure]
    simp only [ok_bind]
    refine ⟨?_, fun e => by omega⟩
    rintro ⟨it', h1⟩
    split at h1
    · unfold badAccess at h1; split at h1 <;> cases h1
    · split at h1
      · cases h1
      · simp only [ok.injEq, Prod.mk.injEq] at h1
        have h2 := congrArg List.length h1.2
        simp only [List.length_map, List.length_take] at h2
        have hr : l.length % w ≠ 0 := by
          intro e
          rw [e, Nat.sub_zero, Nat.mod_self, Nat.zero_mul, Nat.zero_div] at hn
          omega
        rw [Nat.mod_eq_of_lt (by omega)] at hpw ⊢
        omega
  · rw [C130_collect h fuel () _ hw hw hs (by omega) (by omega) (by omega) hfuel, callAll_pure]
    simp only [ok_bind, hn]
    constructor
    · rintro ⟨it', h1⟩
      simp only [ok.injEq, Prod.mk.injEq] at h1
      have h2 := congrArg List.length h1.2
      by_cases hr : l.length % w = 0
      · rw [hr, Nat.sub_zero, Nat.mod_self, Nat.zero_mul, Nat.zero_div] at hn
        rw [hr, Nat.sub_zero, Nat.mod_self, hn]
      · rw [Nat.mod_eq_of_lt (by omega)]
        rw [calls_rest d l hr, List.map_append, List.map_cons, List.map_nil, unpad_concat] at h2
        simp only [List.length_map, List.length_append, lanes_length, fullWindows_length,
          List.length_drop, Vector.length_toList] at h2
        omega
    · intro e
      refine ⟨⟨S l.length, (), pureFn (Vector.map g)⟩, ?_⟩
      rw [e, unpad_map, unpad_calls hw]

/-- **C130**, with scalars whose sizes are powers of two, as all scalars of the crate: exactly if
there is no remainder or the scalars have the same size. -/
theorem C130_lanewise_size_iff (h : Driver c S l d more) (fuel : Nat) (g : α → β)
    (hw : 0 < w) {a b : Nat} (ha : Packable.size α = 2 ^ a) (hb : Packable.size β = 2 ^ b)
    (hlen' : (l.length / w + 1) * w + w * Packable.size α < c.usize) (hfuel : l.length / w < fuel) :
    (∃ it', scalarCollect c fuel (simdMap (S 0) () (pureFn (Vector.map g))) =
        ok (it', (l.map g).map some)) ↔
      w ∣ l.length ∨ Packable.size α = Packable.size β := by
  have hm := Nat.mod_lt l.length hw
  rw [C130_lanewise_iff h fuel g hw (by rw [hb]; exact Nat.two_pow_pos b) hlen' hfuel,
    Nat.dvd_iff_mod_eq_zero]
  by_cases hr : l.length % w = 0
  · simp only [hr, true_or, iff_true]
    rw [Nat.sub_zero, Nat.mod_self, Nat.zero_mul, Nat.zero_div]
  · simp only [hr, false_or]
    rw [Nat.mod_eq_of_lt (by omega)]
    generalize hq : w - l.length % w = q
    have hq0 : 0 < q := by omega
    rw [ha, hb]
    constructor
    · intro e
      rcases Nat.lt_trichotomy a b with hlt | heq | hgt
      · exfalso
        have h1 : 2 ^ a < 2 ^ b := Nat.pow_lt_pow_right (by decide) hlt
        have h2 : q * 2 ^ a < q * 2 ^ b := Nat.mul_lt_mul_of_pos_left h1 hq0
        have h3 : q * 2 ^ a / 2 ^ b < q := Nat.div_lt_of_lt_mul (by rw [Nat.mul_comm (2 ^ b)]; exact h2)
        omega
      · rw [heq]
      · exfalso
        have h1 : 2 ^ a = 2 * 2 ^ (a - b - 1) * 2 ^ b := by
          rw [← Nat.pow_succ', ← Nat.pow_add]; congr 1; omega
        rw [h1, ← Nat.mul_assoc, Nat.mul_div_cancel _ (Nat.two_pow_pos b)] at e
        have h2 := Nat.two_pow_pos (a - b - 1)
        have h3 : q * 2 ≤ q * (2 * 2 ^ (a - b - 1)) := Nat.mul_le_mul_left _ (by omega)
        omega
    · intro e
      rw [e, Nat.mul_div_cancel _ (Nat.two_pow_pos b)]

/-- **C130.** A map whose closure always returns can be collected without panic and without undefined
behaviour exactly if the empty lanes computed for the last vector fit in it, or there are full
vectors with at least as many lanes. -/
theorem C130_returns_iff (h : Driver c S l d more) (fuel : Nat)
    (G : Vector α w → Vector β w') (hw : 0 < w) (hw' : 0 < w') (hs : 0 < Packable.size β)
    (n : Nat) (hn : n = (w - l.length % w) % w * Packable.size α / Packable.size β)
    (hlen' : (l.length / w + 1) * w' + w * Packable.size α < c.usize) (hfuel : l.length / w < fuel) :
    (∃ r, scalarCollect c fuel (simdMap (S 0) () (pureFn G)) = ok r) ↔
      n ≤ w' ∨ w ≤ l.length ∧ n ≤ l.length / w * w' := by
  by_cases hover : w' < n
  · rw [C130_collect_over h fuel () _ hw hw' hs n hn hover hlen' hfuel, callAll_pure]
    simp only [ok_bind]
    constructor
    · rintro ⟨r, h1⟩
      split at h1
      · unfold badAccess at h1; split at h1 <;> cases h1
      · split at h1
        · cases h1
        · right; omega
    · rintro (h1 | ⟨h1, h2⟩)
      · omega
      · rw [if_neg (by omega), if_neg (by omega)]
        exact ⟨_, rfl⟩
  · rw [C130_collect h fuel () _ hw hw' hs (by omega) (by omega) (by omega) hfuel, callAll_pure]
    simp only [ok_bind]
    exact iff_of_true ⟨_, rfl⟩ (Or.inl (by omega))

end

section
variable {I R α γ δ : Type} {w : Nat} [SIMDSized I] [SIMDIterator I α w] [Packable α]
  [ZipRest R γ] [LawfulRest R γ δ w]
  {c : Cfg} {S : Nat → I} {r : R} {rows : List (α × δ)} {dv : Vector (α × δ) w} {more : Nat → Prop}

/-- **C130**, maps of zips. -/
theorem C130_zip_collect {β σ : Type} [Packable β] {w' : Nat}
    (hd : Driver c S (rows.map Prod.fst) (dv.map Prod.fst) more) (hw : 0 < w)
    (hr : LawfulRest.Rep c r (rows.map Prod.snd) (dv.map Prod.snd))
    (hu : rows.length + w < c.usize) (fuel : Nat) (st : σ)
    (f : FnMut σ (Vector α w × γ) (Vector β w'))
    (hw' : 0 < w') (hs : 0 < Packable.size β)
    (hpad : (w - rows.length % w) % w * Packable.size α / Packable.size β ≤ w')
    (hlen' : (rows.length / w + 1) * w' < c.usize)
    (hvec : w * Packable.size α < c.usize) (hfuel : rows.length / w < fuel) :
    (do
      let z ← zip c (S 0) r
      scalarCollect c fuel (zsimdMap z st f)) = (do
      let (outs, st') ← callAll f st ((calls w dv rows).map (packRow R))
      ok (⟨⟨S rows.length, r⟩, st', f⟩,
        (unpad ((w - rows.length % w) % w * Packable.size α / Packable.size β) outs).map some)) := by
  rw [zip_ok hd hw hr]
  simp only [ok_bind]
  obtain ⟨n, hc, he⟩ := zip_emits hd hw hr hu
  obtain ⟨h1, h2, h3, h4⟩ := Driver.count_cases hw hc
  have hl : (((fullWindows w rows).take n).map (packRow R)).length = n := by
    rw [List.length_map, List.length_take, fullWindows_length]; omega
  have hlen : ∀ p, SIMDZippedIterator.len c (⟨S p, r⟩ : Zip I R) = ok (rows.length / w) := by
    intro p
    have := hd.len p
    simp only [List.length_map] at this
    exact this
  have hp := padOf_tailFrom hw dv rows hc
  have hz : zpadOf ((tailFrom dv rows n).map fun q => (packRow R q.1, q.2)) =
      (w - rows.length % w) % w := by
    rw [← hp]
    simp only [zpadOf, padOf]
    cases tailFrom dv rows n <;> rfl
  rw [scalarCollect_zipMap f he (sz := Packable.size α) rfl hw' hs (hlen 0) (by omega) _ _ hlen'
    fuel (by omega) st, zwithTail_tailFrom hw hc, hz]
  · intro ht
    rw [hlen, hl, h4]
    unfold tailFrom at ht
    split at ht
    · cases ht
    · omega
  · intro p m hpm
    rcases ht : tailFrom dv rows n with _ | ⟨q, m'⟩
    · rw [ht] at hpm; cases hpm
    · rw [ht] at hpm
      simp only [Option.map_some, Option.some.injEq, Prod.mk.injEq] at hpm
      have h5 := tailFrom_some ht
      have h6 : m * Packable.size α ≤ w * Packable.size α := Nat.mul_le_mul_right _ (by omega)
      rw [ht] at hp
      simp only [padOf, Option.map_some, Option.getD_some] at hp
      refine ⟨by omega, ?_⟩
      rw [← hpm.2, hp]
      exact hpad

/-- **C130**, maps of zips, exactly when the last vector has more empty lanes than lanes. -/
theorem C130_zip_collect_over {β σ : Type} [Packable β] {w' : Nat}
    (hd : Driver c S (rows.map Prod.fst) (dv.map Prod.fst) more) (hw : 0 < w)
    (hr : LawfulRest.Rep c r (rows.map Prod.snd) (dv.map Prod.snd))
    (hu : rows.length + w < c.usize) (fuel : Nat) (st : σ)
    (f : FnMut σ (Vector α w × γ) (Vector β w'))
    (hw' : 0 < w') (hs : 0 < Packable.size β)
    (n : Nat) (hn : n = (w - rows.length % w) % w * Packable.size α / Packable.size β) (hover : w' < n)
    (hlen' : (rows.length / w + 1) * w' + w * Packable.size α < c.usize)
    (hfuel : rows.length / w < fuel) :
    (do
      let z ← zip c (S 0) r
      scalarCollect c fuel (zsimdMap z st f)) = (do
      let (outs, st') ← callAll f st ((calls w dv rows).map (packRow R))
      if rows.length < w then badAccess c
      else if rows.length / w * w' < n then panic
      else ok (⟨⟨S rows.length, r⟩, st', f⟩,
        ((clobber n outs).take (rows.length / w * w' + w' - n)).map some)) := by
  rw [zip_ok hd hw hr]
  simp only [ok_bind]
  have hm := Nat.mod_lt rows.length hw
  have hr0 : rows.length % w ≠ 0 := by
    intro e
    rw [e, Nat.sub_zero, Nat.mod_self, Nat.zero_mul, Nat.zero_div] at hn
    omega
  rw [Nat.mod_eq_of_lt (by omega)] at hn
  obtain ⟨k, hc, he⟩ := zip_emits hd hw hr hu
  obtain ⟨rfl, ht⟩ := tailFrom_rest hw dv rows hc hr0
  have hl := fullWindows_length w rows
  have h6 : (w - rows.length % w) * Packable.size α ≤ w * Packable.size α :=
    Nat.mul_le_mul_right _ (by omega)
  have hn2 : n ≤ w * Packable.size α := by
    rw [hn]; exact Nat.le_trans (Nat.div_le_self _ _) h6
  have hL : SIMDZippedIterator.len c (⟨S 0, r⟩ : Zip I R) = ok (rows.length / w) := by
    have := hd.len 0
    simp only [List.length_map] at this
    exact this
  rw [List.take_of_length_le (by omega), ht] at he
  have hsz : SIMDZippedIterator.size (⟨S rows.length, r⟩ : Zip I R) = Packable.size α := rfl
  have hm := zipMap_emits f he hs (by
    intro p m e
    simp only [Option.map_some, Option.some.injEq, Prod.mk.injEq] at e
    rw [hsz, ← e.2]; omega) st
  simp only [zmapTail, Option.map_some, hsz, ← hn] at hm
  have := collect_over f st ((fullWindows w rows).map (packRow R)) _ n
    (fun s => (⟨⟨S rows.length, r⟩, s, f⟩ : SIMDZipMap (Zip I R) σ (Vector α w × γ) β w'))
    hm fuel (by rw [List.length_map]; omega) hw' hover (by rw [List.length_map, hl]; exact hL)
    (by rw [List.length_map, hl]; omega)
  rw [calls_rest dv rows hr0, List.map_append, List.map_cons, List.map_nil]
  refine this.trans ?_
  congr 1
  funext q
  rw [List.length_map, hl]
  have : rows.length / w = 0 ↔ rows.length < w := by rw [Nat.div_eq_zero_iff]; omega
  simp only [this]

end

/-! ### Slices, and what goes wrong -/

/-- **C130** is false of the code, slices: narrowing to half the size with as many lanes, for
instance `f64x4` to `f32x4`. On a slice of one element, the release build reads a lane which does not
exist and the debug build panics. -/
theorem C130_false_narrow {α β : Type} [Packable α] [Packable β] {w : Nat} (c : Cfg) (fuel : Nat)
    (x : α) (d : Vector α w) (g : α → β) (hw : 2 < w) (hs : 0 < Packable.size β)
    (hsize : Packable.size α = 2 * Packable.size β)
    (hlen' : w + w * Packable.size α < c.usize) (hfuel : 0 < fuel) :
    scalarCollect c fuel (simdMap (simdIter [x] d) () (pureFn (Vector.map g))) = badAccess c := by
  have h1 : 1 % w = 1 := Nat.mod_eq_of_lt (by omega)
  have h2 : 1 / w = 0 := Nat.div_eq_of_lt (by omega)
  have hdr := simdIter_driver (represents_slice (w := w) c [x]) d (by omega) (by
    have : w * 1 ≤ w * Packable.size α := Nat.mul_le_mul_left _ (by omega)
    simp only [List.length_singleton]; omega)
  have := C130_collect_over hdr fuel () (pureFn (Vector.map g)) (by omega) (by omega) hs
    ((w - 1) * 2) (by
      rw [List.length_singleton, h1, Nat.mod_eq_of_lt (by omega), hsize, ← Nat.mul_assoc,
        Nat.mul_div_cancel _ hs]) (by omega)
    (by rw [List.length_singleton, h2]; omega) (by rw [List.length_singleton, h2]; omega)
  rw [callAll_pure] at this
  simp only [ok_bind, List.length_singleton] at this
  rw [if_pos (by omega)] at this
  exact this

/-- **C130** is false of the code, widening to twice the size with as many lanes, for instance `f32x4`
to `f64x4`: whenever there is a remainder the result is too long. -/
theorem C130_false_widen {α β : Type} [Packable α] [Packable β] {w : Nat} (c : Cfg) (fuel : Nat)
    (l : List α) (d : Vector α w) (g : α → β) (hw : 0 < w) (hs : 0 < Packable.size α)
    (hr : l.length % w ≠ 0)
    (hsize : Packable.size β = 2 * Packable.size α) (hl : l.length + w < c.usize)
    (hlen' : (l.length / w + 1) * w + w * Packable.size α < c.usize) (hfuel : l.length / w < fuel) :
    ∃ it' out, scalarCollect c fuel (simdMap (simdIter l d) () (pureFn (Vector.map g))) =
        ok (it', out) ∧ out.length = l.length + (w - l.length % w + 1) / 2 := by
  have hm := Nat.mod_lt l.length hw
  have hdm := Nat.div_add_mod l.length w
  rw [Nat.mul_comm] at hdm
  have hdr := simdIter_driver (represents_slice (w := w) c l) d hw hl
  have hq : (w - l.length % w) % w * Packable.size α / Packable.size β = (w - l.length % w) / 2 := by
    rw [Nat.mod_eq_of_lt (by omega), hsize, Nat.mul_div_mul_right _ _ hs]
  have := C130_collect hdr fuel () (pureFn (Vector.map g)) hw hw (by omega)
    (by rw [hq]; omega) (by omega) (by omega) hfuel
  rw [callAll_pure, hq] at this
  simp only [ok_bind] at this
  refine ⟨_, _, this, ?_⟩
  rw [calls_rest d l hr, List.map_append, List.map_cons, List.map_nil, unpad_concat]
  simp only [List.length_map, List.length_append, lanes_length, fullWindows_length,
    List.length_drop, Vector.length_toList]
  rw [Nat.succ_mul] at hlen'
  omega


/-- Narrowing from 64 to 32 bits in four lanes, release build: undefined behaviour with one element. -/
example : (scalarCollect release64 9 (simdMap (simdIter (w := 4) [7#64] (Vector.replicate 4 0)) ()
    (pureFn (Vector.map (BitVec.truncate 32))))).bind (fun r => ok r.2) = ub := by decide +kernel

/-- The debug build panics. -/
example : (scalarCollect debug64 9 (simdMap (simdIter (w := 4) [7#64] (Vector.replicate 4 0)) ()
    (pureFn (Vector.map (BitVec.truncate 32))))).bind (fun r => ok r.2) = panic := by decide +kernel

/-- Five elements: six empty lanes, but only four results before: a panic in the release build. -/
example : (scalarCollect release64 9 (simdMap (simdIter (w := 4) [1#64, 2, 3, 4, 5]
    (Vector.replicate 4 0)) () (pureFn (Vector.map (BitVec.truncate 32))))).bind (fun r => ok r.2) =
      panic := by decide +kernel

/-- Nine elements: six results, two of which are the images of default lanes. -/
example : (scalarCollect release64 9 (simdMap (simdIter (w := 4) [1#64, 2, 3, 4, 5, 6, 7, 8, 9]
    (Vector.replicate 4 77)) () (pureFn (Vector.map (BitVec.truncate 32))))).bind (fun r => ok r.2) =
      ok ([1#32, 2, 77, 77, 5, 6].map some) := by decide +kernel

/-- Widening from 32 to 64 bits, five elements: seven results, two of them images of default lanes. -/
example : (scalarCollect release64 9 (simdMap (simdIter (w := 4) [1#32, 2, 3, 4, 5]
    (Vector.replicate 4 77)) () (pureFn (Vector.map (BitVec.setWidth 64))))).bind (fun r => ok r.2) =
      ok ([1#64, 2, 3, 4, 77, 77, 5].map some) := by decide +kernel

/-- Four elements: no remainder, the same as the scalar map. -/
example : (scalarCollect release64 9 (simdMap (simdIter (w := 4) [1#64, 2, 3, 4]
    (Vector.replicate 4 77)) () (pureFn (Vector.map (BitVec.truncate 32))))).bind (fun r => ok r.2) =
      ok ([1#32, 2, 3, 4].map some) := by decide +kernel

/-- The hypotheses of `C130_false_narrow` and `C130_false_widen` can be met. -/
example : scalarCollect release64 1 (simdMap (simdIter (w := 4) [7#64] (Vector.replicate 4 0)) ()
    (pureFn (Vector.map (BitVec.truncate 32)))) = badAccess release64 :=
  C130_false_narrow release64 1 7#64 _ _ (by decide) (by decide) (by decide) (by decide) (by decide)

example : ∃ it' out, scalarCollect debug64 2 (simdMap (simdIter (w := 4) [1#32, 2, 3, 4, 5]
    (Vector.replicate 4 0)) () (pureFn (Vector.map (BitVec.setWidth 64)))) = ok (it', out) ∧
      out.length = 7 :=
  C130_false_widen debug64 2 _ _ _ (by decide) (by decide) (by decide) (by decide) (by decide)
    (by decide) (by decide)

end Faster
