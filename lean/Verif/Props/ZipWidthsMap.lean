import Verif.Props.ZipOutcome
import Verif.Props.FillAt
/-
C147: `simd_map` and `scalar_collect` of a zip of slices of any lengths and numbers of lanes.
-/
namespace Faster
open Res SIMDSized SIMDIterable SIMDIterator

section
variable {α R γ : Type} {w : Nat} [Packable α] [ZipRest R γ] [MixedRest R γ]

/-- The tuples which `next` delivers before something fails, and what fails. -/
def mixedStream (c : Cfg) (r : R) : Nat → List (Vector α w) → List (Vector α w × γ) × Res Unit
  | _, [] => ([], ok ())
  | p, u :: us =>
    match MixedRest.windows c r p with
    | ok v => ((u, v) :: (mixedStream c r (p + w) us).1, (mixedStream c r (p + w) us).2)
    | e => ([], e.castFail)

/-- What `end` returns after them. -/
def mixedTail (c : Cfg) (xs : List α) (dx : Vector α w) (r : R) :
    Res (Option ((Vector α w × γ) × Nat)) :=
  if xs.length % w = 0 then ok none
  else MixedRest.tails c r (xs.length / w * w) (w - xs.length % w) >>= fun v =>
    ok (some ((padFront dx (leftover w xs), v), w - xs.length % w))

omit [Packable α] in
theorem mixedStream_length_le (c : Cfg) (r : R) (us : List (Vector α w)) (p : Nat) :
    (mixedStream c r p us).1.length ≤ us.length := by
  induction us generalizing p with
  | nil => exact Nat.le_refl _
  | cons u us ih =>
    simp only [mixedStream]
    split
    · simpa using ih (p + w)
    · simp

omit [Packable α] in
theorem mixedStream_length (c : Cfg) (r : R) (us : List (Vector α w)) (p : Nat)
    (h : (mixedStream c r p us).2 = ok ()) : (mixedStream c r p us).1.length = us.length := by
  induction us generalizing p with
  | nil => rfl
  | cons u us ih =>
    simp only [mixedStream] at h ⊢
    split at h
    · simpa using ih (p + w) h
    · rename_i e he
      cases hw : MixedRest.windows c r p with
      | ok v => exact absurd hw (he v)
      | _ => rw [hw] at h; cases h

theorem mixed_runs (c : Cfg) (xs : List α) (dx : Vector α w) (r : R) (hw : 0 < w)
    (hu : Roomy c xs.length w (MixedRest.shapes r)) : ∀ k, k ≤ xs.length / w →
    ZRuns c (⟨⟨(xs.length / w - k) * w, ⟨xs⟩, dx⟩, r⟩ : Zip (SIMDIter (Slice α w) α w) R)
      (mixedStream c r ((xs.length / w - k) * w) ((fullWindows w xs).drop (xs.length / w - k))).1
      ((mixedStream c r ((xs.length / w - k) * w) ((fullWindows w xs).drop (xs.length / w - k))).2
        >>= fun _ => ok ⟨⟨xs.length / w * w, ⟨xs⟩, dx⟩, r⟩) := by
  intro k
  induction k with
  | zero =>
    intro _
    rw [Nat.sub_zero, List.drop_eq_nil_of_le (by rw [fullWindows_length])]
    exact ZRuns.done (mixed_next_none c xs dx r hw hu)
  | succ k ih =>
    intro hk
    have h1 : xs.length / w - (k + 1) < (fullWindows w xs).length := by
      rw [fullWindows_length]; omega
    have h2 := mixed_next c xs dx r (xs.length / w - (k + 1)) hu h1
    rw [show xs.length / w - (k + 1) + 1 = xs.length / w - k by omega] at h2
    have h3 := ih (by omega)
    rw [List.drop_eq_getElem_cons h1, show xs.length / w - (k + 1) + 1 = xs.length / w - k by omega]
    simp only [mixedStream]
    rw [show (xs.length / w - (k + 1)) * w + w = (xs.length / w - k) * w by
      rw [← Nat.succ_mul, show (xs.length / w - (k + 1)).succ = xs.length / w - k by omega]]
    cases hv : MixedRest.windows c r ((xs.length / w - (k + 1)) * w) with
    | ok v =>
      rw [hv] at h2
      exact ZRuns.step h2 h3
    | _ =>
      rw [hv] at h2
      exact ZRuns.fail h2 (by simp)

/-- **C147**: exactly what an accepted zip delivers by `next` and then by `end`, and where it fails. -/
theorem C147_emits (c : Cfg) (xs : List α) (dx : Vector α w) (r : R) (hw : 0 < w)
    (hu : Roomy c xs.length w (MixedRest.shapes r)) :
    ZEmits c (⟨simdIter xs dx, r⟩ : Zip (SIMDIter (Slice α w) α w) R)
      (mixedStream c r 0 (fullWindows w xs)).1
      ((mixedStream c r 0 (fullWindows w xs)).2 >>= fun _ => mixedTail c xs dx r >>= fun t =>
        ok (t, ⟨⟨xs.length, ⟨xs⟩, dx⟩, r⟩)) := by
  have h := mixed_runs c xs dx r hw hu (xs.length / w) (Nat.le_refl _)
  rw [Nat.sub_self, Nat.zero_mul, List.drop_zero] at h
  refine ⟨_, h, ?_⟩
  rw [bind_assoc]
  congr 1
  funext _
  simp only [ok_bind]
  rw [mixed_end c xs dx r hw hu, mixedTail]
  split
  · rfl
  · rw [bind_assoc]
    rfl

variable {β σ : Type} {w' : Nat} [Packable β]

/-- The vector which `scalar_collect` returns for `k` full vectors, the results `us` and `n` empty
lanes of the last of them (see C05 and C09). -/
def collectedLanes (c : Cfg) (k n : Nat) (us : List (Vector β w')) : Res (List (Option β)) :=
  if w' < n then
    if k = 0 then badAccess c
    else if k * w' < n then panic
    else ok (((clobber n us).take (k * w' + w' - n)).map some)
  else ok ((unpad n us).map some)

/-- **C147**: `zip`, `simd_map` and `scalar_collect` for any number of slices of any lengths and
numbers of lanes: the closure is called on the tuples which can be read; what cannot be read fails
as it does in `next` and `end`; then the results are written as for one slice. -/
theorem C147_collect_exact (c : Cfg) (xs : List α) (dx : Vector α w) (r : R) (hw : 0 < w)
    (hu : Roomy c xs.length w (MixedRest.shapes r)) (fuel : Nat) (st : σ)
    (f : FnMut σ (Vector α w × γ) (Vector β w')) (hw' : 0 < w') (hs : 0 < Packable.size β)
    (hlen' : (xs.length / w + 1) * w' + w * Packable.size α < c.usize)
    (hfuel : xs.length / w < fuel) :
    (do
      let z ← zip c (simdIter xs dx) r
      let (_, out) ← scalarCollect c fuel (zsimdMap z st f)
      ok out) =
      if ∃ s ∈ MixedRest.shapes r, s.1 / s.2 ≠ xs.length / w then panic
      else (do
        let q ← callAll f st (mixedStream c r 0 (fullWindows w xs)).1
        let _ ← (mixedStream c r 0 (fullWindows w xs)).2
        let t ← mixedTail c xs dx r
        let q' ← callAll f q.2 (t.toList.map (·.1))
        collectedLanes c (xs.length / w)
          ((w - xs.length % w) % w * Packable.size α / Packable.size β) (q.1 ++ q'.1)) := by
  rw [C147_zip c xs dx r hw hu]
  split
  · rfl
  simp only [ok_bind]
  have he := C147_emits c xs dx r hw hu
  have hle := mixedStream_length_le c r (fullWindows w xs) 0
  have hlS := mixedStream_length c r (fullWindows w xs) 0
  rw [fullWindows_length] at hle hlS
  have hmod := Nat.mod_lt xs.length hw
  have hlen : ∀ p st, SIMDIterable.len c
      (zsimdMap (⟨⟨p, ⟨xs⟩, dx⟩, r⟩ : Zip (SIMDIter (Slice α w) α w) R) st f :
        SIMDZipMap (Zip (SIMDIter (Slice α w) α w) R) σ (Vector α w × γ) β w') =
      ok (xs.length / w) := fun p _ => C16_len c xs dx p hw
  generalize hS : mixedStream c r 0 (fullWindows w xs) = S at he hle hlS ⊢
  -- a failing `next` or `end`
  have hfail : ∀ {e : Res (Option (Vector β w' × Nat) ×
      SIMDZipMap (Zip (SIMDIter (Slice α w) α w) R) σ (Vector α w × γ) β w')},
      Emits c (zsimdMap (⟨simdIter xs dx, r⟩ : Zip (SIMDIter (Slice α w) α w) R) st f) (mapRun f st S.1).1 e → (∀ x, e ≠ ok x) →
      ∀ {X : Res (List (Option β))}, X = (e >>= fun _ => X) →
      (scalarCollect c fuel (zsimdMap (⟨simdIter xs dx, r⟩ : Zip (SIMDIter (Slice α w) α w) R) st f) >>=
        fun x => ok x.2) = X := by
    intro e he hne X hX
    have := mapRun_length_le f st S.1
    rw [scalarCollect_emits he fuel (by omega) hw' (hlen 0 st) (by omega) (by omega)
      (fun _ _ _ h => absurd h (hne _)) (fun _ h => absurd h (hne _)), hX]
    cases e with
    | ok a => exact absurd rfl (hne _)
    | _ => rfl
  by_cases hok : S.2 = ok () ∧ ∃ t, mixedTail c xs dx r = ok t
  · obtain ⟨h1, t, ht⟩ := hok
    rw [h1, ht] at he ⊢
    simp only [ok_bind] at he ⊢
    have hl := hlS h1
    have htn : ∀ v n, t = some (v, n) → xs.length % w ≠ 0 ∧ n = w - xs.length % w := by
      rintro v n rfl
      unfold mixedTail at ht
      split at ht
      · cases ht
      · rename_i h0
        obtain ⟨v', -, h3⟩ := bind_eq_ok.1 ht
        simp only [ok.injEq, Option.some.injEq, Prod.mk.injEq] at h3
        exact ⟨h0, h3.2.symm⟩
    have ht0 : t = none → xs.length % w = 0 := by
      rintro rfl
      unfold mixedTail at ht
      split at ht
      · assumption
      · obtain ⟨v', -, h3⟩ := bind_eq_ok.1 ht
        cases h3
    have hsz : ∀ z : Zip (SIMDIter (Slice α w) α w) R, SIMDZippedIterator.size z = Packable.size α :=
      fun _ => rfl
    have hm := zipMap_emits f he hs (by
      intro v n e
      have h6 : n * Packable.size α ≤ w * Packable.size α :=
        Nat.mul_le_mul_right _ (by have := htn v n e; omega)
      rw [hsz]; omega) st
    let t' : Option ((Vector α w × γ) × Nat) :=
      t.map fun q => (q.1, q.2 * Packable.size α / Packable.size β)
    have hpad : zpadOf t' = (w - xs.length % w) % w * Packable.size α / Packable.size β := by
      simp only [t', zpadOf]
      rcases t with _ | ⟨v, n⟩
      · rw [ht0 rfl, Nat.sub_zero, Nat.mod_self]
        simp
      · obtain ⟨h3, rfl⟩ := htn v n rfl
        rw [Nat.mod_eq_of_lt (show w - xs.length % w < w by omega)]
        rfl
    have hnle : zpadOf t' ≤ w * Packable.size α := by
      rw [hpad]
      exact Nat.le_trans (Nat.div_le_self _ _)
        (Nat.mul_le_mul_right _ (Nat.le_of_lt (Nat.mod_lt _ hw)))
    have := collect_outcome (c := c) (m := zsimdMap (⟨simdIter xs dx, r⟩ : Zip (SIMDIter (Slice α w) α w) R) st f) f st S.1 t'
      (fun s => (⟨⟨⟨xs.length, ⟨xs⟩, dx⟩, r⟩, s, f⟩ :
        SIMDZipMap (Zip (SIMDIter (Slice α w) α w) R) σ (Vector α w × γ) β w'))
      (by
        refine cast (congrArg _ ?_) hm
        congr 1
        funext st'
        simp only [hsz, t']
        rcases t with _ | ⟨v, n⟩ <;> rfl)
      fuel (by omega) hw' (hlen 0 st) (by omega) (fun _ s => hlen _ s) (by omega)
    rw [this, ← hpad, hl, zwithTail, callAll_append]
    have e : t'.toList.map (·.1) = t.toList.map (·.1) := by
      simp only [t']; cases t <;> rfl
    rw [e]
    simp only [bind_assoc]
    congr 1
    funext q
    congr 1
    funext q'
    simp only [ok_bind, collectedLanes, Nat.sub_self, Nat.zero_mul, ite_self, List.replicate_zero,
      List.append_nil]
    repeat' split
    all_goals simp
  · have hne : ∀ x : Option ((Vector α w × γ) × Nat) × Zip (SIMDIter (Slice α w) α w) R,
        (S.2 >>= fun _ => mixedTail c xs dx r >>= fun t => ok (t, ⟨⟨xs.length, ⟨xs⟩, dx⟩, r⟩)) ≠
          ok x := by
      intro x hx
      obtain ⟨_, h1, h2⟩ := bind_eq_ok.1 hx
      obtain ⟨t, h2, -⟩ := bind_eq_ok.1 h2
      exact hok ⟨h1, t, h2⟩
    obtain ⟨rr, hr1, hr2⟩ := he
    have hE : Emits c (zsimdMap (⟨simdIter xs dx, r⟩ : Zip (SIMDIter (Slice α w) α w) R) st f) (mapRun f st S.1).1
        ((mapRun f st S.1).2 >>= fun _ => S.2 >>= fun _ => mixedTail c xs dx r >>= fun _ =>
          (panic : Res (Option (Vector β w' × Nat) ×
            SIMDZipMap (Zip (SIMDIter (Slice α w) α w) R) σ (Vector α w × γ) β w'))) := by
      refine ⟨_, zipMap_runs f hr1 st, ?_⟩
      rw [bind_assoc]
      congr 1
      funext st'
      cases rr with
      | ok z1 =>
        simp only [ok_bind] at hr2
        simp only [ok_bind, SIMDIterator.end_, SIMDZipMap.end_, ← hr2]
        cases hS2 : S.2 with
        | ok _ =>
          cases hT : mixedTail c xs dx r with
          | ok t => exact absurd ⟨hS2, t, hT⟩ hok
          | _ => simp
        | _ => simp
      | _ =>
        cases hS2 : S.2 with
        | ok _ =>
          rw [hS2] at hr2
          cases hT : mixedTail c xs dx r with
          | ok t => exact absurd ⟨hS2, t, hT⟩ hok
          | _ => rw [hT] at hr2; first | rfl | cases hr2
        | _ => rw [hS2] at hr2; first | rfl | cases hr2
    refine hfail hE ?_ ?_
    · intro x hx
      obtain ⟨_, -, h2⟩ := bind_eq_ok.1 hx
      obtain ⟨_, -, h2⟩ := bind_eq_ok.1 h2
      obtain ⟨_, -, h2⟩ := bind_eq_ok.1 h2
      cases h2
    · rw [callAll_mapRun]
      cases (mapRun f st S.1).2 with
      | ok s1 =>
        simp only [ok_bind]
        cases hS2 : S.2 with
        | ok _ =>
          cases hT : mixedTail c xs dx r with
          | ok t => exact absurd ⟨hS2, t, hT⟩ hok
          | _ => simp
        | _ => simp
      | _ => rfl

end

/-- Five bytes in vectors of two, zipped with eight in vectors of four, sums of the first
two lanes: the fifth byte meets the sixth of the other slice. -/
example : (do
    let z ← zip release64 (simdIter (w := 2) [1#8, 2, 3, 4, 5] #v[0, 0])
      (simdIter (w := 4) [10#8, 20, 30, 40, 50, 60, 70, 80] #v[0, 0, 0, 0], ())
    let (_, out) ← scalarCollect release64 9 (zsimdMap z () (pureFn
      (fun (v : Vector (BitVec 8) 2 × Vector (BitVec 8) 4 × Unit) => (#v[v.1[0] + v.2.1[0], v.1[1] + v.2.1[1]] : Vector (BitVec 8) 2))))
    ok out) = ok [some 11#8, some 22, some 33, some 44, some 65] := by decide +kernel

end Faster
