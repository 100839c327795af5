import Verif.Props.FillAt
import Verif.Props.FillAllAny
/-
C02, C03, C24, C31, C32: the consumers at every position of the iterator: inside of a collection
which is not longer than a vector they fail in `end`, behind the end they do nothing, everywhere else
they see the elements which are left.
-/
namespace Faster
open Res SIMDSized SIMDIterable SIMDIterator

section
variable {I α β σ : Type} {w w' : Nat} [SIMDSized I] [SIMDIterator I α w] [Packable α] [Packable β]
  {c : Cfg} {S : Nat → I} {l : List α} {d : Vector α w} {more : Nat → Prop} {b : Nat}

omit [Packable α] in
/-- Nothing is delivered by `next` where `end` fails. -/
theorem Everywhere.stuck_zero (h : Everywhere c S l d more b) {p k : Nat} (hst : Stuck w p l.length)
    (hk : ∀ i, i < k → more (p + i * w)) : k = 0 := by
  rcases Nat.eq_zero_or_pos k with h2 | h2
  · exact h2
  · obtain ⟨h3, -⟩ := h.next_some _ (hk 0 h2)
    have := hst.1; have := hst.2.2
    omega

omit [Packable α] in
/-- **C02**, every position: the calls of `simd_do_each`. -/
theorem C02_at (h : Everywhere c S l d more b) (fuel : Nat) (st : σ) (f : FnMut σ (Vector α w) Unit)
    (p : Nat) (hp : p < b) (hw : 0 < w) (k : Nat)
    (hk : ∀ i, i < k → more (p + i * w)) (hk' : ¬ more (p + k * w)) (hfuel : k < fuel) :
    simdDoEach c fuel (S p) st f =
      if Stuck w p l.length then badAccess c
      else callAll f st (calls w d (l.drop p)) >>= fun q => ok (S (max p l.length), q.2) := by
  obtain ⟨hc, he⟩ := h.emits_at hw p hp k hk hk'
  have h1 := (Driver.count_cases hw hc).1
  have hl : ((fullWindows w (l.drop p)).take k).length = k := by
    rw [List.length_take, fullWindows_length]; omega
  by_cases hst : Stuck w p l.length
  · rw [if_pos hst] at he ⊢
    rw [h.stuck_zero hst hk, List.take_zero] at he
    obtain ⟨r, h2, h3⟩ := he
    simp only [simdDoEach, doEachLoop_runs f h2 fuel st (by simp; omega), callAll, ok_bind, bind_assoc]
    cases r with
    | ok it1 =>
      simp only [ok_bind] at h3 ⊢
      rw [← h3, badAccess_bind]
    | _ =>
      revert h3
      unfold badAccess
      split <;> simp
  · rw [if_neg hst] at he ⊢
    rw [simdDoEach_emits f he fuel st (by omega), withTail_tailFrom hw d _ hc]

omit [Packable α] in
/-- **C03**, every position: the fold of `simd_reduce`. -/
theorem C03_at {A : Type} (h : Everywhere c S l d more b) (fuel : Nat) (start : A) (st : σ)
    (f : σ → A → Vector α w → Res (A × σ))
    (p : Nat) (hp : p < b) (hw : 0 < w) (k : Nat)
    (hk : ∀ i, i < k → more (p + i * w)) (hk' : ¬ more (p + k * w)) (hfuel : k < fuel) :
    simdReduce c fuel (S p) start st f =
      if Stuck w p l.length then badAccess c
      else (calls w d (l.drop p)).foldlM (fun (q : A × σ) v => f q.2 q.1 v) (start, st) >>= fun q =>
        ok (S (max p l.length), q.1, q.2) := by
  obtain ⟨hc, he⟩ := h.emits_at hw p hp k hk hk'
  have h1 := (Driver.count_cases hw hc).1
  have hl : ((fullWindows w (l.drop p)).take k).length = k := by
    rw [List.length_take, fullWindows_length]; omega
  by_cases hst : Stuck w p l.length
  · rw [if_pos hst] at he ⊢
    rw [h.stuck_zero hst hk, List.take_zero] at he
    obtain ⟨r, h2, h3⟩ := he
    simp only [simdReduce, reduceLoop_runs f h2 fuel start st (by simp; omega), List.foldlM_nil,
      bind_assoc]
    cases r with
    | ok it1 =>
      simp only [ok_bind] at h3 ⊢
      rw [← h3]
      exact badAccess_bind ..
    | _ =>
      revert h3
      unfold badAccess
      split <;> simp
  · rw [if_neg hst] at he ⊢
    rw [simdReduce_emits f he fuel start st (by omega), withTail_tailFrom hw d _ hc]

/-- **C32**, every position and every buffer. -/
theorem C32_at (h : Everywhere c S l d more b) (fuel : Nat) (st : σ)
    (f : FnMut σ (Vector α w) (Vector β w')) (buf : List β) (p : Nat) (hp : p < b)
    (hw : 0 < w) (hw' : 0 < w') (hs : 0 < Packable.size β) (hvec : w * Packable.size α < c.usize)
    (k : Nat) (hk : ∀ i, i < k → more (p + i * w)) (hk' : ¬ more (p + k * w))
    (hu : buf.length + w' < c.usize) (hfuel : k < fuel) :
    scalarFillAll c fuel (simdMap (S p) st f) buf =
      if Stuck w p l.length then badAccess c
      else if (calls w d (l.drop p)).length * w' ≤ buf.length then
        callAll f st (calls w d (l.drop p)) >>= fun q =>
          ok (⟨S (max p l.length), q.2, f⟩, splice buf 0 (lanes q.1))
      else callAll f st ((calls w d (l.drop p)).take (buf.length / w' + 1)) >>= fun _ =>
        badAccess c := by
  obtain ⟨hc, he⟩ := h.emits_at hw p hp k hk hk'
  have h1 := (Driver.count_cases hw hc).1
  have hl : ((fullWindows w (l.drop p)).take k).length = k := by
    rw [List.length_take, fullWindows_length]; omega
  by_cases hst : Stuck w p l.length
  · rw [if_pos hst] at he ⊢
    rw [h.stuck_zero hst hk, List.take_zero] at he
    have := scalarFillAll_emits id (simdMap_stuck f he st) fuel buf (by simp; omega) (by simp)
      (by simp; omega) (by intro _ _ _ e; rw [badAccess] at e; split at e <;> cases e)
    exact this.trans (by simp)
  rw [if_neg hst] at he ⊢
  have hm := simdMap_endOf f he hs (by
    intro v m e
    have h5 := Nat.mul_le_mul_right (Packable.size α) (tailFrom_some e)
    omega) st
  have := fillAll_outcome id f st _ _ _ _ hm fuel buf (by omega) hw' hu
  have e1 : (fullWindows w (l.drop p)).take k ++
      ((tailFrom d (l.drop p) k).map Prod.fst).toList = calls w d (l.drop p) := by
    rw [← withTail_tailFrom hw d _ hc, withTail]
    cases tailFrom d (l.drop p) k <;> rfl
  rw [e1] at this
  simp only [List.map_id_fun, id_eq] at this
  exact this

/-- **C31**, every position. -/
theorem C31_at (h : Everywhere c S l d more b) (fuel : Nat) (st : σ)
    (f : FnMut σ (Vector α w) (Vector β w')) (p : Nat) (hp : p < b)
    (hw : 0 < w) (hw' : 0 < w') (hs : 0 < Packable.size β) (hvec : w * Packable.size α < c.usize)
    (k : Nat) (hk : ∀ i, i < k → more (p + i * w)) (hk' : ¬ more (p + k * w))
    (hu : (l.length / w + 1) * w' < c.usize) (hfuel : k < fuel) :
    scalarCollectAll c fuel (simdMap (S p) st f) =
      if Stuck w p l.length then badAccess c
      else if (calls w d (l.drop p)).length * w' ≤ l.length / w then
        callAll f st (calls w d (l.drop p)) >>= fun q =>
          ok (⟨S (max p l.length), q.2, f⟩, (lanes q.1).map some ++
            List.replicate (l.length / w - (calls w d (l.drop p)).length * w') none)
      else callAll f st ((calls w d (l.drop p)).take (l.length / w / w' + 1)) >>= fun _ =>
        badAccess c := by
  obtain ⟨hc, he⟩ := h.emits_at hw p hp k hk hk'
  have h1 := (Driver.count_cases hw hc).1
  have hl : ((fullWindows w (l.drop p)).take k).length = k := by
    rw [List.length_take, fullWindows_length]; omega
  have hL : SIMDIterable.len c (simdMap (S p) st f) = ok (l.length / w) := h.len p
  by_cases hst : Stuck w p l.length
  · rw [if_pos hst] at he ⊢
    rw [h.stuck_zero hst hk, List.take_zero] at he
    have h2 : (l.length / w + 1) * w' = l.length / w * w' + w' := Nat.succ_mul _ _
    have h3 : l.length / w ≤ l.length / w * w' := Nat.le_mul_of_pos_right _ hw'
    simp only [scalarCollectAll]
    rw [hL]
    simp only [ok_bind]
    rw [uadd_ok (by omega)]
    simp only [ok_bind]
    rw [umul_ok (by omega)]
    simp only [ok_bind, RVec.setLen, RVec.withCapacity, List.length_replicate]
    rw [if_pos (by omega)]
    simp only [ok_bind, RVec.slice]
    have h4 := scalarFillAll_emits some (simdMap_stuck f he st) fuel
      ((List.replicate ((l.length / w + 1) * w') (none : Option β)).take (l.length / w))
      (by simp; omega) (by simp)
      (by simp; omega) (by intro _ _ _ e; rw [badAccess] at e; split at e <;> cases e)
    rw [show simdMap (S p) st f = ⟨S p, st, f⟩ from rfl, h4]
    simp
  rw [if_neg hst] at he ⊢
  have hm := simdMap_endOf f he hs (by
    intro v m e
    have h5 := Nat.mul_le_mul_right (Packable.size α) (tailFrom_some e)
    omega) st
  have := collectAll_outcome f st _ _ _ _ hm (L := l.length / w) hL fuel (by omega) hw' hu
  have e1 : (fullWindows w (l.drop p)).take k ++
      ((tailFrom d (l.drop p) k).map Prod.fst).toList = calls w d (l.drop p) := by
    rw [← withTail_tailFrom hw d _ hc, withTail]
    cases tailFrom d (l.drop p) k <;> rfl
  rw [e1] at this
  exact this

end

section
variable {I R α γ δ : Type} {w : Nat} [SIMDSized I] [SIMDIterator I α w] [Packable α]
  [ZipRest R γ] [LawfulRest R γ δ w]
  {c : Cfg} {S : Nat → I} {r : R} {rows : List (α × δ)} {dv : Vector (α × δ) w} {more : Nat → Prop}
  {b : Nat}

/-- **C24**, every position of the first iterator: `simd_do_each` of a zip of any arity. -/
theorem C24_do_each_at {σ : Type} (h : Everywhere c S (rows.map Prod.fst) (dv.map Prod.fst) more b)
    (hw : 0 < w) (hr : LawfulRest.Rep c r (rows.map Prod.snd) (dv.map Prod.snd))
    (hu : rows.length + w < c.usize) (fuel : Nat) (st : σ) (f : FnMut σ (Vector α w × γ) Unit)
    (p : Nat) (hp : p < b) (k : Nat)
    (hk : ∀ i, i < k → more (p + i * w)) (hk' : ¬ more (p + k * w)) (hfuel : k < fuel) :
    zsimdDoEach c fuel (⟨S p, r⟩ : Zip I R) st f =
      if Stuck w p rows.length then badAccess c
      else callAll f st ((calls w dv (rows.drop p)).map (packRow R)) >>= fun q =>
        ok (⟨S (max p rows.length), r⟩, q.2) := by
  obtain ⟨hc, he⟩ := zip_emits_at h hw hr hu p hp k hk hk'
  have h1 := (Driver.count_cases hw hc).1
  by_cases hst : Stuck w p rows.length
  · rw [if_pos hst] at he ⊢
    rw [h.stuck_zero (by rw [List.length_map]; exact hst) hk, List.take_zero, List.map_nil] at he
    obtain ⟨r, h2, h3⟩ := he
    simp only [zsimdDoEach, zdoEachLoop_runs f h2 fuel st (by simp; omega), callAll, ok_bind, bind_assoc]
    cases r with
    | ok it1 =>
      simp only [ok_bind] at h3 ⊢
      rw [← h3, badAccess_bind]
    | _ =>
      revert h3
      unfold badAccess
      split <;> simp
  · rw [if_neg hst] at he ⊢
    rw [zsimdDoEach_emits f he fuel st (by simp [fullWindows_length]; omega),
      zwithTail_tailFrom hw hc]

/-- **C24**, every position of the first iterator: `simd_reduce` of a zip of any arity. -/
theorem C24_reduce_at {A σ : Type} (h : Everywhere c S (rows.map Prod.fst) (dv.map Prod.fst) more b)
    (hw : 0 < w) (hr : LawfulRest.Rep c r (rows.map Prod.snd) (dv.map Prod.snd))
    (hu : rows.length + w < c.usize) (fuel : Nat) (start : A) (st : σ)
    (f : σ → A → Vector α w × γ → Res (A × σ))
    (p : Nat) (hp : p < b) (k : Nat)
    (hk : ∀ i, i < k → more (p + i * w)) (hk' : ¬ more (p + k * w)) (hfuel : k < fuel) :
    zsimdReduce c fuel (⟨S p, r⟩ : Zip I R) start st f =
      if Stuck w p rows.length then badAccess c
      else ((calls w dv (rows.drop p)).map (packRow R)).foldlM (fun (q : A × σ) v => f q.2 q.1 v)
          (start, st) >>= fun q => ok (⟨S (max p rows.length), r⟩, q.1, q.2) := by
  obtain ⟨hc, he⟩ := zip_emits_at h hw hr hu p hp k hk hk'
  have h1 := (Driver.count_cases hw hc).1
  by_cases hst : Stuck w p rows.length
  · rw [if_pos hst] at he ⊢
    rw [h.stuck_zero (by rw [List.length_map]; exact hst) hk, List.take_zero, List.map_nil] at he
    obtain ⟨r, h2, h3⟩ := he
    simp only [zsimdReduce, zreduceLoop_runs f h2 fuel start st (by simp; omega), List.foldlM_nil,
      bind_assoc]
    cases r with
    | ok it1 =>
      simp only [ok_bind] at h3 ⊢
      rw [← h3]
      exact badAccess_bind ..
    | _ =>
      revert h3
      unfold badAccess
      split <;> simp
  · rw [if_neg hst] at he ⊢
    rw [zsimdReduce_emits f he fuel start st (by simp [fullWindows_length]; omega),
      zwithTail_tailFrom hw hc]

end

/-- Two of three elements are left, the vector has four lanes: `simd_reduce` fails. -/
example : (simdReduce debug64 9 (⟨1, ⟨[1#8, 2, 3]⟩, Vector.replicate 4 0⟩ :
      SIMDIter (Slice (BitVec 8) 4) (BitVec 8) 4) (0 : Nat) ()
      (fun _ a v => ok (a + v[3].toNat, ()))).bind (fun r => ok r.2.1) = panic := by decide +kernel

/-- Behind the end the start value comes back. -/
example : (simdReduce debug64 9 (⟨7, ⟨[1#8, 2, 3]⟩, Vector.replicate 4 0⟩ :
      SIMDIter (Slice (BitVec 8) 4) (BitVec 8) 4) (5 : Nat) ()
      (fun _ a v => ok (a + v[3].toNat, ()))).bind (fun r => ok r.2.1) = ok 5 := by decide +kernel

end Faster
