import Verif.Props.FillAny
import Verif.Props.Unwind
import Verif.Props.Stride
import Verif.Props.Protocol
/-
C09: what `scalar_collect` of a map does for every closure and all sizes of vectors, when the
iterator below already stands at some position. Slices and strides.
-/
namespace Faster
open Res SIMDSized SIMDIterable SIMDIterator

section
variable {I σ α β : Type} {w w' : Nat} [SIMDSized I] [SIMDIterator I α w] [Packable α] [Packable β]

/-- `scalar_collect` of a map over a source whose `end` succeeds and whose `len` after the pass may
be larger than the number of vectors delivered. -/
theorem collect_map_part {c : Cfg} (f : FnMut σ (Vector α w) (Vector β w')) {it it' : I}
    {vs : List (Vector α w)} {t : Option (Vector α w × Nat)} (h : Emits c it vs (ok (t, it')))
    {L : Nat} (hw' : 0 < w') (hs : 0 < Packable.size β)
    (hL : SIMDIterable.len c it = ok L) (hv : vs.length ≤ L)
    (hL2 : t = none → SIMDIterable.len c it' = ok L)
    (hn : ∀ p n, t = some (p, n) → n * Packable.size α < c.usize ∧
      n * Packable.size α / Packable.size β ≤ w')
    (hu : (L + 1) * w' < c.usize) (fuel : Nat) (hf : vs.length < fuel) (st : σ) :
    scalarCollect c fuel (⟨it, st, f⟩ : SIMDMap I σ α w β w') =
      callAll f st (withTail vs t) >>= fun q => ok (⟨it', q.2, f⟩,
        (unpad (padOf t * Packable.size α / Packable.size β) q.1).map some ++
          List.replicate (if t = none then (L - vs.length) * w' else 0) none) := by
  rcases t with _ | ⟨p, n⟩
  · have hm := simdMap_emits f h hs (fun p n e => (hn p n e).1) st
    have hlen := mapRun_length_le f st vs
    rw [if_pos rfl]
    simp only [withTail, Option.toList_none, List.map_nil, List.append_nil, padOf, Option.map_none,
      Option.getD_none, Nat.zero_mul, Nat.zero_div, unpad_zero]
    rw [callAll_mapRun f st vs]
    cases h2 : (mapRun f st vs).2 with
    | ok a =>
      have hl := mapRun_length f st a vs h2
      rw [h2] at hm
      simp only [ok_bind, mapTail] at hm
      rw [scalarCollect_emits_none hm fuel (by omega) hw' (L := L) (by exact hL) (by omega) hu
        (L' := L) (by exact hL2 rfl) (Nat.le_refl _)]
      simp only [ok_bind]
      congr 2
      have e1 : (L + 1) * w' = L * w' + w' := Nat.succ_mul L w'
      have e2 := Nat.mul_le_mul_right w' hv
      rw [List.take_append, List.take_replicate, List.take_of_length_le (by
        rw [List.length_map, lanes_length, hl]; exact e2), List.length_map, lanes_length, hl,
        Nat.sub_mul, Nat.min_eq_left (by omega)]
    | _ =>
      rw [h2] at hm
      rw [scalarCollect_emits hm fuel (by omega) hw' (L := L) (by exact hL) (by omega) hu
        (by intro _ _ _ e; cases e) (by intro _ e; cases e)]
      rfl
  · rw [show (⟨it, st, f⟩ : SIMDMap I σ α w β w') = simdMap it st f from rfl,
      scalarCollect_map f h hw' hs hL hv (fun e => by cases e) hn hu fuel hf st]
    simp

end

section
variable {I σ α β : Type} {w w' : Nat} [SIMDSized I] [SIMDIterator I α w] [Packable α] [Packable β]
variable {c : Cfg} {S : Nat → I} {l : List α} {d : Vector α w} {more : Nat → Prop}

omit [Packable α] [Packable β] in
/-- `Driver.runs_from`, and the last vector was delivered by `next`. -/
theorem Driver.runs_more (h : Driver c S l d more) (hw : 0 < w) :
    ∀ p, p ≤ l.length → ∃ n, Runs c (S p) ((fullWindows w (l.drop p)).take n) (ok (S (p + n * w))) ∧
      ¬ more (p + n * w) ∧ Driver.count w (l.drop p) n ∧ (0 < n → more (p + n * w - w)) := by
  intro p
  induction hk : l.length - p using Nat.strongRecOn generalizing p with
  | _ k ih =>
    intro hp
    by_cases hm : more p
    · obtain ⟨hle, hn⟩ := h.next_some p hm
      obtain ⟨n, hr, hs, hc, hl⟩ := ih (l.length - (p + w)) (by omega) (p + w) rfl hle
      have e0 : p + (n + 1) * w = p + w + n * w := by rw [Nat.succ_mul]; omega
      refine ⟨n + 1, ?_, ?_, ?_, ?_⟩
      · rw [fullWindows_cons hw (by simp; omega), List.take_succ_cons, List.drop_drop]
        have e : windowAt (l.drop p) 0 w (by simp; omega) = windowAt l p w hle := by
          ext i hi; simp [windowAt]
        rw [e, e0]
        exact Runs.step hn hr
      · rwa [e0]
      · simp only [Driver.count, List.length_drop] at hc ⊢
        rw [Nat.div_eq_sub_div hw (show w ≤ l.length - p by omega),
          Nat.mod_eq_sub_mod (show w ≤ l.length - p by omega),
          show l.length - p - w = l.length - (p + w) by omega]
        omega
      · intro _
        rw [e0]
        by_cases h0 : n = 0
        · rw [h0, Nat.zero_mul, Nat.add_zero, Nat.add_sub_cancel]; exact hm
        · exact hl (by omega)
    · refine ⟨0, ?_, by simpa using hm, ?_, fun h0 => by omega⟩
      · simpa using Runs.done (h.next_none p hp hm)
      · have := h.few p hm
        simp only [Driver.count, List.length_drop]
        by_cases h3 : l.length - p = w
        · right; rw [h3, Nat.mod_self, Nat.div_self hw]; simp
        · left; rw [Nat.div_eq_of_lt (by omega)]

/-- **C09**, any iterator which walks over a list, at any position `p` at which `end` works, under a
map with any closure: all remaining elements go through the closure. If the iterator stops without
a partial vector, everything consumed before is made up for by uninitialised elements. -/
theorem C09_map_driver [DecidablePred more] (h : Driver c S l d more) (fuel : Nat) (st : σ)
    (f : FnMut σ (Vector α w) (Vector β w')) (p : Nat) (hp : p ≤ l.length)
    (hpos : p = 0 ∨ p = l.length ∨ w < l.length) (hw : 0 < w) (hw' : 0 < w')
    (hs : 0 < Packable.size β) (hvec : w * Packable.size α < c.usize)
    (hfit : w * Packable.size α ≤ w' * Packable.size β)
    (hu : (l.length / w + 1) * w' < c.usize) (hfuel : l.length / w < fuel) :
    scalarCollect c fuel (⟨S p, st, f⟩ : SIMDMap I σ α w β w') =
      callAll f st (calls w d (l.drop p)) >>= fun q => ok (⟨S l.length, q.2, f⟩,
        (unpad ((w - (l.length - p) % w) % w * Packable.size α / Packable.size β) q.1).map some ++
          List.replicate (if (l.length - p) % w = 0 ∧ (p = l.length ∨ more (l.length - w))
            then (l.length / w - (l.length - p) / w) * w' else 0) none) := by
  obtain ⟨n, hr, hm, hc, hlast⟩ := h.runs_more hw p hp
  have hcalls := withTail_tailFrom hw d _ hc
  have hpad := padOf_tailFrom hw d _ hc
  obtain ⟨h1, h2, h3, h4⟩ := Driver.count_cases hw hc
  have he : Emits c (S p) ((fullWindows w (l.drop p)).take n)
      (ok (tailFrom d (l.drop p) n, S l.length)) := by
    rw [List.length_drop] at h2 h3
    refine ⟨_, hr, ?_⟩
    simp only [ok_bind]
    rw [h.end_ _ (by omega) hm]
    · simp only [tailFrom, List.length_drop, List.drop_drop]
      by_cases hlt : p + n * w < l.length
      · rw [if_pos hlt, if_pos (by omega)]
        rw [show l.length - (p + n * w) = l.length - p - n * w by omega]
      · rw [if_neg hlt, if_neg (by omega), show p + n * w = l.length by omega]
    · intro hlt
      by_cases hn : n = 0
      · rw [hn, Nat.zero_mul, Nat.add_zero] at hlt ⊢
        omega
      · right
        have := Nat.le_mul_of_pos_left w (Nat.pos_of_ne_zero hn)
        omega
  have hle : (l.length - p) / w ≤ l.length / w := Nat.div_le_div_right (by omega)
  rw [Driver.count, List.length_drop] at hc
  rw [List.length_drop] at h1 h2 h3 h4 hpad
  have hl : ((fullWindows w (l.drop p)).take n).length = n := by
    rw [List.length_take, fullWindows_length, List.length_drop]; omega
  rw [collect_map_part f he hw' hs (h.len p) (by omega) (fun _ => h.len _) (by
    intro v m e
    have h5 := Nat.mul_le_mul_right (Packable.size α) (tailFrom_some e)
    exact ⟨by omega, Nat.div_le_of_le_mul (by rw [Nat.mul_comm (Packable.size β)]; omega)⟩)
    hu fuel (by omega) st, hcalls, hpad, hl]
  have ht : (tailFrom d (l.drop p) n = none) ↔ l.length ≤ p + n * w := by
    rw [tailFrom, List.length_drop]
    by_cases h6 : n * w < l.length - p
    · rw [if_pos h6]; simp; omega
    · rw [if_neg h6]; simp; omega
  have hd := Nat.div_add_mod (l.length - p) w
  rw [Nat.mul_comm] at hd
  have hiff : (tailFrom d (l.drop p) n = none) ↔
      (l.length - p) % w = 0 ∧ (p = l.length ∨ more (l.length - w)) := by
    rw [ht]
    constructor
    · intro h6
      have h7 := h4 (by omega)
      rw [← h7] at hd
      refine ⟨by omega, ?_⟩
      by_cases h0 : n = 0
      · left; rw [h0, Nat.zero_mul] at h6; omega
      · right
        have := hlast (by omega)
        rwa [show p + n * w = l.length by omega] at this
    · rintro ⟨h6, h7⟩
      rcases hc with hc | ⟨-, hc⟩
      · rw [← hc] at hd; omega
      · exfalso
        rw [← hc, Nat.succ_mul] at hd
        rcases h7 with h7 | h7
        · omega
        · exact hm (by rwa [show p + n * w = l.length - w by omega])
  congr 1; funext q
  congr 4
  by_cases h6 : tailFrom d (l.drop p) n = none
  · rw [if_pos h6, if_pos (hiff.1 h6), h4 (by have := ht.1 h6; omega)]
  · rw [if_neg h6, if_neg (fun h => h6 (hiff.2 h))]
end

section
variable {σ α β : Type} {w w' : Nat} [Packable α] [Packable β]

/-- **C09**, maps of a slice iterator at position `p`, any closure and any sizes of vectors which
leave room for the empty lanes. -/
theorem C09_map_slice (c : Cfg) (fuel : Nat) (l : List α) (d : Vector α w) (st : σ)
    (f : FnMut σ (Vector α w) (Vector β w')) (p : Nat) (hp : p ≤ l.length)
    (hw : 0 < w) (hw' : 0 < w') (hs : 0 < Packable.size β)
    (hlen : l.length + w < c.usize) (hvec : w * Packable.size α < c.usize)
    (hfit : w * Packable.size α ≤ w' * Packable.size β)
    (hu : (l.length / w + 1) * w' < c.usize) (hfuel : l.length / w < fuel) :
    scalarCollect c fuel (⟨⟨p, ⟨l⟩, d⟩, st, f⟩ : SIMDMap (SIMDIter (Slice α w) α w) σ α w β w') =
      if 0 < p ∧ p < l.length ∧ l.length ≤ w then badAccess c
      else callAll f st (calls w d (l.drop p)) >>= fun q => ok (⟨⟨l.length, ⟨l⟩, d⟩, q.2, f⟩,
        (unpad ((w - (l.length - p) % w) % w * Packable.size α / Packable.size β) q.1).map some ++
          List.replicate (if (l.length - p) % w = 0 then p / w * w' else 0) none) := by
  have hr := represents_slice (w := w) c l
  by_cases hbad : 0 < p ∧ p < l.length ∧ l.length ≤ w
  · rw [if_pos hbad]
    have hend := simdIter_end_exact hr p d hlen
    rw [if_neg (by omega), if_neg (by omega), if_pos (by omega)] at hend
    have hnext : SIMDIterable.next c (⟨p, ⟨l⟩, d⟩ : SIMDIter (Slice α w) α w) =
        ok (none, ⟨p, ⟨l⟩, d⟩) := simdIter_next_none hr (by omega) (by omega)
    have he : Emits c (⟨⟨p, ⟨l⟩, d⟩, st, f⟩ : SIMDMap (SIMDIter (Slice α w) α w) σ α w β w') []
        (badAccess c) := by
      refine ⟨ok ⟨⟨p, ⟨l⟩, d⟩, st, f⟩, Runs.done ?_, ?_⟩
      · simp only [SIMDIterable.next, SIMDMap.next] at hnext ⊢
        rw [hnext]; rfl
      · simp only [ok_bind, SIMDIterator.end_, SIMDMap.end_] at hend ⊢
        rw [hend, badAccess_bind]
    rw [scalarCollect_emits he fuel (Nat.zero_lt_of_lt hfuel) hw' (L := l.length / w)
      (by exact simdIter_len c hw l d _) (by simp) hu (by unfold badAccess; split <;> simp)
      (by unfold badAccess; split <;> simp), badAccess_bind]
  · rw [if_neg hbad, C09_map_driver (simdIter_driver hr d hw hlen) fuel st f p hp (by omega) hw hw'
      hs hvec hfit hu hfuel]
    congr 1; funext q
    congr 4
    have hd := Nat.div_add_mod (l.length - p) w
    rw [Nat.mul_comm] at hd
    by_cases h0 : (l.length - p) % w = 0
    · have h1 : p = l.length ∨ l.length - w + w ≤ l.length := by
        by_cases h2 : p = l.length
        · exact Or.inl h2
        · right
          have h3 : 0 < (l.length - p) / w := by
            rcases Nat.eq_zero_or_pos ((l.length - p) / w) with h | h
            · rw [h, Nat.zero_mul] at hd; omega
            · exact h
          have := Nat.le_mul_of_pos_left w h3
          omega
      rw [if_pos ⟨h0, h1⟩, if_pos h0]
      congr 1
      have e : l.length = p + (l.length - p) / w * w := by omega
      have : l.length / w = p / w + (l.length - p) / w := by
        conv => lhs; rw [e]
        exact Nat.add_mul_div_right _ _ hw
      rw [this, Nat.add_sub_cancel]
    · rw [if_neg (fun h => h0 h.1), if_neg h0]

/-- **C09**, maps of slices: the exact condition under which the collected `Vec` has uninitialised
elements. A whole vector or more has been consumed before, and whole vectors remain. -/
theorem C09_map_uninit_iff (c : Cfg) (fuel : Nat) (l : List α) (d : Vector α w) (st : σ)
    (f : FnMut σ (Vector α w) (Vector β w')) (p : Nat) (hp : p ≤ l.length)
    (hw : 0 < w) (hw' : 0 < w') (hs : 0 < Packable.size β)
    (hlen : l.length + w < c.usize) (hvec : w * Packable.size α < c.usize)
    (hfit : w * Packable.size α ≤ w' * Packable.size β)
    (hu : (l.length / w + 1) * w' < c.usize) (hfuel : l.length / w < fuel)
    {it' : SIMDMap (SIMDIter (Slice α w) α w) σ α w β w'} {out : List (Option β)}
    (h : scalarCollect c fuel (⟨⟨p, ⟨l⟩, d⟩, st, f⟩ :
      SIMDMap (SIMDIter (Slice α w) α w) σ α w β w') = ok (it', out)) :
    none ∈ out ↔ w ≤ p ∧ (l.length - p) % w = 0 := by
  rw [C09_map_slice c fuel l d st f p hp hw hw' hs hlen hvec hfit hu hfuel] at h
  by_cases hbad : 0 < p ∧ p < l.length ∧ l.length ≤ w
  · rw [if_pos hbad, badAccess] at h
    split at h <;> cases h
  · rw [if_neg hbad] at h
    obtain ⟨q, -, h⟩ := bind_eq_ok.1 h
    simp only [ok.injEq, Prod.mk.injEq] at h
    rw [← h.2, List.mem_append, List.mem_replicate]
    simp only [List.mem_map, reduceCtorEq, and_false, exists_false, false_or, and_true]
    by_cases h0 : (l.length - p) % w = 0
    · rw [if_pos h0]
      simp only [h0, and_true]
      rw [← Nat.pos_iff_ne_zero]
      constructor
      · intro h1
        rcases Nat.lt_or_ge p w with h2 | h2
        · rw [Nat.div_eq_of_lt h2, Nat.zero_mul] at h1; omega
        · exact h2
      · intro h1
        exact Nat.mul_pos (Nat.div_pos h1 hw) hw'
    · rw [if_neg h0]; simp [h0]

/-- **C09**, maps of strides: stride `k` of `s` over `l`, with `p` elements of the stride consumed.
Only the strides which have a further element in the incomplete last group of `s` expose
uninitialised elements. -/
theorem C09_map_stride (c : Cfg) (fuel : Nat) (l : List α) {s k : Nat} (hk : k < s) (d : Vector α w)
    (st : σ) (f : FnMut σ (Vector α w) (Vector β w')) (p : Nat) (hp : p ≤ l.length / s)
    (hpos : p = 0 ∨ p = l.length / s ∨ w < l.length / s) (hw : 0 < w) (hw' : 0 < w')
    (hs : 0 < Packable.size β) (hvec : w * Packable.size α < c.usize)
    (hfit : w * Packable.size α ≤ w' * Packable.size β)
    (hlen : l.length + s * (w + 1) < c.usize)
    (hu : (l.length / s / w + 1) * w' < c.usize) (hfuel : l.length / s / w < fuel) :
    scalarCollect c fuel
        (⟨⟨⟨l⟩, k + s * p, k, s, d⟩, st, f⟩ : SIMDMap (PackedStride (Slice α w) α w) σ α w β w') =
      callAll f st (calls w d ((strided s k l hk).drop p)) >>= fun q =>
        ok (⟨⟨⟨l⟩, k + s * (l.length / s), k, s, d⟩, q.2, f⟩,
        (unpad ((w - (l.length / s - p) % w) % w * Packable.size α / Packable.size β) q.1).map some ++
          List.replicate (if (l.length / s - p) % w = 0 ∧ (p = l.length / s ∨ k < l.length % s)
            then p / w * w' else 0) none) := by
  have hlen2 := strided_length s k l hk
  rw [C09_map_driver (stride_driver (represents_slice (w := w) c l) hk d hw hlen) fuel st f p
    (by omega) (by omega) hw hw' hs hvec hfit (by rw [hlen2]; exact hu) (by rw [hlen2]; exact hfuel)]
  rw [hlen2]
  congr 1; funext q
  congr 4
  generalize hm : l.length / s = m at *
  have hd := Nat.div_add_mod (m - p) w
  rw [Nat.mul_comm] at hd
  have hls := Nat.div_add_mod l.length s
  rw [hm] at hls
  by_cases h0 : (m - p) % w = 0
  · have h1 : (p = m ∨ k + s * (m - w + w) < l.length) ↔ (p = m ∨ k < l.length % s) := by
      by_cases h2 : p = m
      · simp [h2]
      · have h3 : 0 < (m - p) / w := by
          rcases Nat.eq_zero_or_pos ((m - p) / w) with h | h
          · rw [h, Nat.zero_mul] at hd; omega
          · exact h
        have := Nat.le_mul_of_pos_left w h3
        rw [show m - w + w = m by omega]
        omega
    by_cases h2 : p = m ∨ k < l.length % s
    · rw [if_pos ⟨h0, h1.2 h2⟩, if_pos ⟨h0, h2⟩]
      congr 1
      have e : m = p + (m - p) / w * w := by omega
      have : m / w = p / w + (m - p) / w := by
        conv => lhs; rw [e]
        exact Nat.add_mul_div_right _ _ hw
      rw [this, Nat.add_sub_cancel]
    · rw [if_neg (fun h => h2 (h1.1 h.2)), if_neg (fun h => h2 h.2)]
  · rw [if_neg (fun h => h0 h.1), if_neg (fun h => h0 h.1)]

end

section
variable {Z γ σ β : Type} {w' : Nat} [SIMDZippedIterator Z γ] [Packable β]

/-- `scalar_collect` of a map of a zip whose `len` after the pass may be larger than the number of
rows of vectors delivered. -/
theorem collect_zipMap_part {c : Cfg} (f : FnMut σ γ (Vector β w')) {z z' : Z}
    {vs : List γ} {t : Option (γ × Nat)} (h : ZEmits c z vs (ok (t, z')))
    {L sz : Nat} (hsz : SIMDZippedIterator.size z' = sz) (hw' : 0 < w') (hs : 0 < Packable.size β)
    (hL : SIMDZippedIterator.len c z = ok L) (hv : vs.length ≤ L)
    (hL2 : t = none → SIMDZippedIterator.len c z' = ok L)
    (hn : ∀ p n, t = some (p, n) → n * sz < c.usize ∧ n * sz / Packable.size β ≤ w')
    (hu : (L + 1) * w' < c.usize) (fuel : Nat) (hf : vs.length < fuel) (st : σ) :
    scalarCollect c fuel (zsimdMap z st f) =
      callAll f st (zwithTail vs t) >>= fun q => ok (⟨z', q.2, f⟩,
        (unpad (zpadOf t * sz / Packable.size β) q.1).map some ++
          List.replicate (if t.isNone then (L - vs.length) * w' else 0) none) := by
  rcases t with _ | ⟨p, n⟩
  · have hm := zipMap_emits f h hs (fun p n e => by cases e) st
    have hlen := mapRun_length_le f st vs
    rw [if_pos Option.isNone_none]
    simp only [zwithTail, Option.toList_none, List.map_nil, List.append_nil, zpadOf, Option.map_none,
      Option.getD_none, Nat.zero_mul, Nat.zero_div, unpad_zero, zsimdMap]
    rw [callAll_mapRun f st vs]
    cases h2 : (mapRun f st vs).2 with
    | ok a =>
      have hl := mapRun_length f st a vs h2
      rw [h2] at hm
      simp only [ok_bind, zmapTail] at hm
      rw [scalarCollect_emits_none hm fuel (by omega) hw' (L := L) (by exact hL) (by omega) hu
        (L' := L) (by exact hL2 rfl) (Nat.le_refl _)]
      simp only [ok_bind]
      congr 2
      have e1 : (L + 1) * w' = L * w' + w' := Nat.succ_mul L w'
      have e2 := Nat.mul_le_mul_right w' hv
      rw [List.take_append, List.take_replicate, List.take_of_length_le (by
        rw [List.length_map, lanes_length, hl]; exact e2), List.length_map, lanes_length, hl,
        Nat.sub_mul, Nat.min_eq_left (by omega)]
    | _ =>
      rw [h2] at hm
      rw [scalarCollect_emits hm fuel (by omega) hw' (L := L) (by exact hL) (by omega) hu
        (by intro _ _ _ e; cases e) (by intro _ e; cases e)]
      rfl
  · rw [scalarCollect_zipMap f h hsz hw' hs hL hv (fun e => by cases e) hn hu fuel hf st]
    simp

end

section
variable {I R α γ δ : Type} {w : Nat} [SIMDSized I] [SIMDIterator I α w] [Packable α]
  [ZipRest R γ] [LawfulRest R γ δ w]
  {c : Cfg} {S : Nat → I} {r : R} {rows : List (α × δ)} {dv : Vector (α × δ) w} {more : Nat → Prop}

/-- `zip_runs_from`, and the last row of vectors was delivered by `next`. -/
theorem zip_runs_more (hd : Driver c S (rows.map Prod.fst) (dv.map Prod.fst) more) (hw : 0 < w)
    (hr : LawfulRest.Rep c r (rows.map Prod.snd) (dv.map Prod.snd)) (hu : rows.length < c.usize) :
    ∀ p, p ≤ rows.length → ∃ n,
      ZRuns c (⟨S p, r⟩ : Zip I R) (((fullWindows w (rows.drop p)).take n).map (packRow R))
        (ok ⟨S (p + n * w), r⟩) ∧
      ¬ more (p + n * w) ∧ Driver.count w (rows.drop p) n ∧ (0 < n → more (p + n * w - w)) := by
  intro p
  induction hk : rows.length - p using Nat.strongRecOn generalizing p with
  | _ k ih =>
    intro hp
    by_cases hm : more p
    · obtain ⟨hle, hn⟩ := (zip_next hd hr hu p).1 hm
      obtain ⟨n, hr', hs, hc, hl⟩ := ih (rows.length - (p + w)) (by omega) (p + w) rfl hle
      have e0 : p + (n + 1) * w = p + w + n * w := by rw [Nat.succ_mul]; omega
      refine ⟨n + 1, ?_, ?_, ?_, ?_⟩
      · rw [fullWindows_cons hw (by simp; omega), List.take_succ_cons, List.drop_drop, List.map_cons]
        have e : windowAt (rows.drop p) 0 w (by simp; omega) = windowAt rows p w hle := by
          ext i hi; simp [windowAt]; simp [windowAt]
        rw [e, e0]
        exact ZRuns.step hn hr'
      · rwa [e0]
      · simp only [Driver.count, List.length_drop] at hc ⊢
        rw [Nat.div_eq_sub_div hw (show w ≤ rows.length - p by omega),
          Nat.mod_eq_sub_mod (show w ≤ rows.length - p by omega),
          show rows.length - p - w = rows.length - (p + w) by omega]
        omega
      · intro _
        rw [e0]
        by_cases h0 : n = 0
        · rw [h0, Nat.zero_mul, Nat.add_zero, Nat.add_sub_cancel]; exact hm
        · exact hl (by omega)
    · refine ⟨0, ?_, by simpa using hm, ?_, fun h0 => by omega⟩
      · simpa using ZRuns.done ((zip_next hd hr hu p).2 hm hp)
      · have := hd.few p hm
        simp only [List.length_map] at this
        simp only [Driver.count, List.length_drop]
        by_cases h3 : rows.length - p = w
        · right; rw [h3, Nat.mod_self, Nat.div_self hw]; simp
        · left; rw [Nat.div_eq_of_lt (by omega)]

/-- **C09**, maps of zips of any arity whose first iterator stands at position `p`. -/
theorem C09_map_zip {β σ : Type} [Packable β] {w' : Nat} [DecidablePred more]
    (hd : Driver c S (rows.map Prod.fst) (dv.map Prod.fst) more) (hw : 0 < w)
    (hr : LawfulRest.Rep c r (rows.map Prod.snd) (dv.map Prod.snd))
    (hu : rows.length + w < c.usize) (fuel : Nat) (st : σ)
    (f : FnMut σ (Vector α w × γ) (Vector β w')) (p : Nat) (hp : p ≤ rows.length)
    (hpos : p = 0 ∨ p = rows.length ∨ w < rows.length)
    (hw' : 0 < w') (hs : 0 < Packable.size β)
    (hfit : w * Packable.size α ≤ w' * Packable.size β)
    (hlen' : (rows.length / w + 1) * w' < c.usize)
    (hvec : w * Packable.size α < c.usize) (hfuel : rows.length / w < fuel) :
    scalarCollect c fuel (zsimdMap (⟨S p, r⟩ : Zip I R) st f) =
      callAll f st ((calls w dv (rows.drop p)).map (packRow R)) >>= fun q =>
        ok (⟨⟨S rows.length, r⟩, q.2, f⟩,
        (unpad ((w - (rows.length - p) % w) % w * Packable.size α / Packable.size β) q.1).map some ++
          List.replicate (if (rows.length - p) % w = 0 ∧ (p = rows.length ∨ more (rows.length - w))
            then (rows.length / w - (rows.length - p) / w) * w' else 0) none) := by
  obtain ⟨n, hruns, hm, hc, hlast⟩ := zip_runs_more hd hw hr (by omega) p hp
  obtain ⟨h1, h2, h3, h4⟩ := Driver.count_cases hw hc
  have he : ZEmits c (⟨S p, r⟩ : Zip I R) (((fullWindows w (rows.drop p)).take n).map (packRow R))
      (ok ((tailFrom dv (rows.drop p) n).map fun q => (packRow R q.1, q.2), ⟨S rows.length, r⟩)) := by
    rw [List.length_drop] at h2 h3
    refine ⟨_, hruns, ?_⟩
    simp only [ok_bind]
    rw [zip_end hd hr (by omega) _ (by omega) hm]
    · simp only [tailFrom, List.length_drop, List.drop_drop]
      by_cases hlt : p + n * w < rows.length
      · rw [if_pos hlt, if_pos (by omega),
          show rows.length - (p + n * w) = rows.length - p - n * w by omega]
        rfl
      · rw [if_neg hlt, if_neg (by omega), show p + n * w = rows.length by omega]
        rfl
    · intro hlt
      by_cases hn : n = 0
      · rw [hn, Nat.zero_mul, Nat.add_zero] at hlt ⊢
        omega
      · right
        have := Nat.le_mul_of_pos_left w (Nat.pos_of_ne_zero hn)
        omega
  have hcount := hc
  rw [Driver.count, List.length_drop] at hc
  have hpad := padOf_tailFrom hw dv _ hcount
  have hz : zpadOf ((tailFrom dv (rows.drop p) n).map fun q => (packRow R q.1, q.2)) =
      (w - (rows.length - p) % w) % w := by
    rw [← List.length_drop, ← hpad]
    simp only [zpadOf, padOf]
    cases tailFrom dv (rows.drop p) n <;> rfl
  rw [List.length_drop] at h1 h2 h3 h4
  have hle : (rows.length - p) / w ≤ rows.length / w := Nat.div_le_div_right (by omega)
  have hl : (((fullWindows w (rows.drop p)).take n).map (packRow R)).length = n := by
    rw [List.length_map, List.length_take, fullWindows_length, List.length_drop]; omega
  have hlen : ∀ p, SIMDZippedIterator.len c (⟨S p, r⟩ : Zip I R) = ok (rows.length / w) := by
    intro p
    have := hd.len p
    simp only [List.length_map] at this
    exact this
  rw [collect_zipMap_part f he (sz := Packable.size α) rfl hw' hs (hlen p) (by omega)
    (fun _ => hlen _) _ hlen' fuel (by omega) st, zwithTail_tailFrom hw hcount, hz, hl]
  · have ht : ((tailFrom dv (rows.drop p) n).map
        fun q => (packRow (γ := γ) R q.1, q.2)).isNone = true ↔ rows.length ≤ p + n * w := by
      rw [tailFrom, List.length_drop]
      by_cases h6 : n * w < rows.length - p
      · rw [if_pos h6]; simp; omega
      · rw [if_neg h6]; simp; omega
    have hdm := Nat.div_add_mod (rows.length - p) w
    rw [Nat.mul_comm] at hdm
    have hiff : rows.length ≤ p + n * w ↔
        (rows.length - p) % w = 0 ∧ (p = rows.length ∨ more (rows.length - w)) := by
      constructor
      · intro h6
        have h7 := h4 (by omega)
        rw [← h7] at hdm
        refine ⟨by omega, ?_⟩
        by_cases h0 : n = 0
        · left; rw [h0, Nat.zero_mul] at h6; omega
        · right
          have := hlast (by omega)
          rwa [show p + n * w = rows.length by omega] at this
      · rintro ⟨h6, h7⟩
        rcases hc with hc | ⟨-, hc⟩
        · rw [← hc] at hdm; omega
        · exfalso
          rw [← hc, Nat.succ_mul] at hdm
          rcases h7 with h7 | h7
          · omega
          · exact hm (by rwa [show p + n * w = rows.length - w by omega])
    congr 1; funext q
    congr 4
    by_cases h6 : rows.length ≤ p + n * w
    · rw [if_pos (ht.2 h6), if_pos (hiff.1 h6), h4 (by omega)]
    · rw [if_neg (fun h => h6 (ht.1 h)), if_neg (fun h => h6 (hiff.2 h))]
  · intro v m hpm
    rcases ht : tailFrom dv (rows.drop p) n with _ | ⟨q, m'⟩
    · rw [ht] at hpm; cases hpm
    · rw [ht] at hpm
      simp only [Option.map_some, Option.some.injEq, Prod.mk.injEq] at hpm
      have h5 := tailFrom_some ht
      have h6 : m * Packable.size α ≤ w * Packable.size α := Nat.mul_le_mul_right _ (by omega)
      exact ⟨by omega, Nat.div_le_of_le_mul (by rw [Nat.mul_comm (Packable.size β)]; omega)⟩

end

/-- One vector of two consumed, one left: the map returns two initialised and two uninitialised
elements. -/
example : (scalarCollect debug64 9 (⟨⟨2, ⟨[1#8, 2, 3, 4]⟩, #v[0, 0]⟩, (),
    pureFn (Vector.map (· + 1#8))⟩ : SIMDMap (SIMDIter (Slice (BitVec 8) 2) (BitVec 8) 2) Unit
      (BitVec 8) 2 (BitVec 8) 2)) >>= (fun r => ok r.2) = ok [some 4, some 5, none, none] := by
  decide +kernel

/-- Stride 0 of 2 over nine elements has the ninth element behind its last group, and exposes
uninitialised elements. -/
example : (scalarCollect debug64 9 (⟨⟨⟨[1#8, 2, 3, 4, 5, 6, 7, 8, 9]⟩, 0 + 2 * 2, 0, 2, #v[0, 0]⟩, (),
    pureFn (Vector.map (· + 1#8))⟩ : SIMDMap (PackedStride (Slice (BitVec 8) 2) (BitVec 8) 2) Unit
      (BitVec 8) 2 (BitVec 8) 2)) >>= (fun r => ok r.2) = ok [some 6, some 8, none, none] := by
  decide +kernel

/-- Stride 1 of the same slice does not. -/
example : (scalarCollect debug64 9 (⟨⟨⟨[1#8, 2, 3, 4, 5, 6, 7, 8, 9]⟩, 1 + 2 * 2, 1, 2, #v[0, 0]⟩, (),
    pureFn (Vector.map (· + 1#8))⟩ : SIMDMap (PackedStride (Slice (BitVec 8) 2) (BitVec 8) 2) Unit
      (BitVec 8) 2 (BitVec 8) 2)) >>= (fun r => ok r.2) = ok [some 7, some 9] := by
  decide +kernel

end Faster
