import Verif.Props.ZipLengths
/-
C123 for zips of any number of slices of any lengths and element types.
-/
namespace Faster
open Res SIMDSized SIMDIterable SIMDIterator

/-- The second and further iterators of a zip, if all of them are iterators over slices with vectors
of `w` lanes. -/
class SliceRest (R : Type) (γ : outParam Type) (w : Nat) [ZipRest R γ] where
  /-- The lengths of the slices. -/
  lens : R → List Nat
  /-- The first `m` tuples of full vectors. -/
  full : R → Nat → List γ
  /-- The last tuple of a pass, if the first slice has `n` elements. -/
  tails : Cfg → Nat → R → Res γ
  len_eq : ∀ (c : Cfg) (r : R) (m : Nat), 0 < w → (∀ n ∈ lens r, n + w < c.usize) →
    ZipRest.lenDiffers c r m = ok (decide (∃ n ∈ lens r, n / w ≠ m))
  full_length : ∀ (r : R) (m : Nat), 0 < w → (∀ n ∈ lens r, n / w = m) → (full r m).length = m
  next_eq : ∀ (c : Cfg) (r : R) (m i : Nat) (v : γ), 0 < w → (∀ n ∈ lens r, n / w = m) →
    (∀ n ∈ lens r, n + w < c.usize) → (full r m)[i]? = some v → ZipRest.nextAll c r (i * w) = ok v
  end_eq : ∀ (c : Cfg) (r : R) (n : Nat), 0 < w → (∀ k ∈ lens r, k / w = n / w) →
    (∀ k ∈ lens r, k + w < c.usize) → n % w ≠ 0 →
    ZipRest.endAll c r (n / w * w) (w - n % w) = tails c n r
  tails_outcome : ∀ (c : Cfg) (n : Nat) (r : R),
    (tails c n r >>= fun _ => ok ()) =
      if c.debug ∧ ∃ k ∈ lens r, k ≠ n then panic
      else if ∃ k ∈ lens r, n < k ∧ k ≤ w then ub else ok ()

/-- No further slice. -/
instance instSliceRestUnit (w : Nat) : SliceRest Unit Unit w where
  lens _ := []
  full _ m := List.replicate m ()
  tails _ _ _ := ok ()
  len_eq _ _ _ _ _ := by simp [ZipRest.lenDiffers]
  full_length _ m _ _ := by simp
  next_eq _ _ _ _ _ _ _ _ _ := rfl
  end_eq _ _ _ _ _ _ _ := rfl
  tails_outcome _ _ _ := by simp

/-- One more slice: full vectors, and `secondTail` (C123) at the end. -/
instance instSliceRestCons {β R γ : Type} {w : Nat} [ZipRest R γ] [SliceRest R γ w] :
    SliceRest (SIMDIter (Slice β w) β w × R) (Vector β w × γ) w where
  lens r := r.1.data.elems.length :: SliceRest.lens w r.2
  full r m := List.zipWith Prod.mk (fullWindows w r.1.data.elems) (SliceRest.full w r.2 m)
  tails c n r := do
    let v ← secondTail c n r.1.data.elems r.1.default
    let vs ← SliceRest.tails w c n r.2
    ok (v, vs)
  len_eq c r m hw h := by
    obtain ⟨⟨q, ⟨ys⟩, dy⟩, r⟩ := r
    simp only [List.mem_cons, forall_eq_or_imp] at h
    have h1 : SIMDIterable.len c (⟨q, ⟨ys⟩, dy⟩ : SIMDIter (Slice β w) β w) = ok (ys.length / w) :=
      (simdIter_driver (represents_slice c ys) dy hw h.1).len q
    have h2 := SliceRest.len_eq c r m hw h.2
    simp only [ZipRest.lenDiffers, h1, ok_bind] at h2 ⊢
    by_cases hm : m = ys.length / w
    · rw [if_neg (by simpa using hm), h2]
      congr 1
      simp [hm]
    · rw [if_pos hm]
      simp
      exact .inl fun e => hm e.symm
  full_length r m hw h := by
    simp only [List.mem_cons, forall_eq_or_imp] at h
    rw [List.length_zipWith, fullWindows_length, SliceRest.full_length r.2 m hw h.2, h.1, Nat.min_self]
  next_eq c r m i v hw h hu hv := by
    obtain ⟨⟨q, ⟨ys⟩, dy⟩, r⟩ := r
    simp only [List.mem_cons, forall_eq_or_imp] at h hu
    rw [List.getElem?_zipWith] at hv
    cases hb : (SliceRest.full w r m)[i]? with
    | none => rw [hb] at hv; cases h' : (fullWindows w ys)[i]? <;> simp [h'] at hv
    | some b =>
      have hi : i < (fullWindows w ys).length := by
        have := (List.getElem?_eq_some_iff.mp hb).1
        rw [SliceRest.full_length r m hw h.2] at this
        rw [fullWindows_length, h.1]; exact this
      rw [hb, List.getElem?_eq_getElem hi] at hv
      simp only [Option.some.injEq] at hv
      subst hv
      rw [fullWindows_length] at hi
      have h1 : (i + 1) * w ≤ ys.length / w * w := Nat.mul_le_mul_right w hi
      have h2 := Nat.div_mul_le_self ys.length w
      rw [Nat.succ_mul] at h1
      have h3 := nextUnchecked_exact c ys q dy (i * w) (by omega)
      rw [dif_pos (by omega)] at h3
      simp only [ZipRest.nextAll, h3, ok_bind]
      have h4 := SliceRest.next_eq c r m i b hw h.2 hu.2 hb
      rw [h4]
      simp [fullWindows, windowAt]
  end_eq c r n hw h hu ha := by
    obtain ⟨⟨q, ⟨ys⟩, dy⟩, r⟩ := r
    simp only [List.mem_cons, forall_eq_or_imp] at h hu
    have h1 : endUnchecked c (⟨q, ⟨ys⟩, dy⟩ : SIMDIter (Slice β w) β w) (n / w * w) (w - n % w) =
        endSeen c ys dy (n / w * w) (w - n % w) :=
      endUnchecked_exact (represents_iter (represents_slice c ys) q dy) _ _ hu.1 (by omega)
    have h2 := SliceRest.end_eq c r n hw h.2 hu.2 ha
    simp only [ZipRest.endAll, h1, endSeen_pass c n ys dy hw h.1.symm ha, h2]
  tails_outcome c n r := by
    obtain ⟨⟨q, ⟨ys⟩, dy⟩, r⟩ := r
    have h := SliceRest.tails_outcome (w := w) c n r
    simp only [bind_assoc, ok_bind, h, List.mem_cons, exists_eq_or_imp]
    unfold secondTail
    by_cases e : ys.length = n
    · simp [e]
    · cases hd : c.debug
      · by_cases h1 : w < ys.length
        · simp [e, h1, show ¬ ys.length ≤ w by omega]
        · by_cases h2 : ys.length < n
          · simp [e, h1, h2, show ¬ n < ys.length by omega]
          · simp [e, h1, h2, show n < ys.length ∧ ys.length ≤ w by omega]
      · simp [e]

section
variable {α R γ : Type} {w : Nat} [Packable α] [ZipRest R γ] [SliceRest R γ w]

/-- The tuples of full vectors of a zip. -/
def fullTuples (w : Nat) (xs : List α) (r : R) [SliceRest R γ w] : List (Vector α w × γ) :=
  List.zipWith Prod.mk (fullWindows w xs) (SliceRest.full w r (xs.length / w))

omit [Packable α] in
theorem fullTuples_length (xs : List α) (r : R) (hw : 0 < w)
    (hm : ∀ n ∈ SliceRest.lens w r, n / w = xs.length / w) :
    (fullTuples w xs r).length = xs.length / w := by
  rw [fullTuples, List.length_zipWith, fullWindows_length, SliceRest.full_length r _ hw hm, Nat.min_self]

omit [Packable α] in
/-- `zip` only compares the numbers of full vectors. -/
theorem C123_zip_many (c : Cfg) (xs : List α) (dx : Vector α w) (r : R) (hw : 0 < w)
    (hu : xs.length + w < c.usize) (hr : ∀ n ∈ SliceRest.lens w r, n + w < c.usize) :
    zip c (simdIter xs dx) r =
      if ∃ n ∈ SliceRest.lens w r, n / w ≠ xs.length / w then panic else ok ⟨simdIter xs dx, r⟩ := by
  have h1 : SIMDIterable.len c (simdIter xs dx) = ok (xs.length / w) :=
    (simdIter_driver (represents_slice c xs) dx hw hu).len 0
  simp only [zip, h1, ok_bind, SliceRest.len_eq c r _ hw hr]
  by_cases h : ∃ n ∈ SliceRest.lens w r, n / w ≠ xs.length / w <;> simp [h]

theorem many_runs (c : Cfg) (xs : List α) (dx : Vector α w) (r : R) (hw : 0 < w)
    (hu : xs.length + w < c.usize) (hr : ∀ n ∈ SliceRest.lens w r, n + w < c.usize)
    (hm : ∀ n ∈ SliceRest.lens w r, n / w = xs.length / w) :
    ∀ k, k ≤ xs.length / w →
      ZRuns c (⟨⟨(xs.length / w - k) * w, ⟨xs⟩, dx⟩, r⟩ : Zip (SIMDIter (Slice α w) α w) R)
        ((fullTuples w xs r).drop (xs.length / w - k))
        (ok ⟨⟨xs.length / w * w, ⟨xs⟩, dx⟩, r⟩) := by
  have h1 := Nat.div_add_mod xs.length w
  have h3 := Nat.mod_lt xs.length hw
  rw [Nat.mul_comm] at h1
  have hlen := fullTuples_length xs r hw hm
  intro k
  induction k with
  | zero =>
    intro _
    rw [Nat.sub_zero, List.drop_eq_nil_of_le (by omega)]
    refine ZRuns.done ?_
    have hn := simdIter_next_none (represents_slice c xs) (p := xs.length / w * w) (d := dx) (by omega)
      (by omega)
    simp only [SIMDZippedIterator.next, Zip.next, SIMDIterable.scalarPos, ok_bind, hn]
  | succ k ih =>
    intro hk
    generalize hi0 : xs.length / w - (k + 1) = i
    have hi : i < (fullTuples w xs r).length := by omega
    have hs : i * w + w = (xs.length / w - k) * w := by
      rw [show xs.length / w - k = i + 1 by omega, Nat.succ_mul]
    have hle : (xs.length / w - k) * w ≤ xs.length / w * w := Nat.mul_le_mul_right _ (by omega)
    rw [List.drop_eq_getElem_cons hi]
    refine ZRuns.step ?_ (by
      rw [show i + 1 = xs.length / w - k by omega]
      exact ih (by omega))
    have hn := simdIter_next_some (represents_slice c xs) (p := i * w) (d := dx) (by omega) (by omega)
    have hif : i < (SliceRest.full w r (xs.length / w)).length := by
      rw [SliceRest.full_length r _ hw hm]; omega
    have hx := SliceRest.next_eq c r (xs.length / w) i _ hw hm hr (List.getElem?_eq_getElem hif)
    simp only [SIMDZippedIterator.next, Zip.next, SIMDIterable.scalarPos, ok_bind, hn, hx, hs]
    simp [fullTuples, fullWindows, windowAt]

theorem many_end (c : Cfg) (xs : List α) (dx : Vector α w) (r : R) (hw : 0 < w)
    (hu : xs.length + w < c.usize) (hr : ∀ n ∈ SliceRest.lens w r, n + w < c.usize)
    (hm : ∀ n ∈ SliceRest.lens w r, n / w = xs.length / w) :
    SIMDZippedIterator.end_ c (⟨⟨xs.length / w * w, ⟨xs⟩, dx⟩, r⟩ :
        Zip (SIMDIter (Slice α w) α w) R) =
      if xs.length % w = 0 then ok (none, ⟨⟨xs.length, ⟨xs⟩, dx⟩, r⟩)
        else SliceRest.tails w c xs.length r >>= fun v =>
          ok (some ((padFront dx (leftover w xs), v), w - xs.length % w),
            ⟨⟨xs.length, ⟨xs⟩, dx⟩, r⟩) := by
  have h1 := Nat.div_add_mod xs.length w
  have h3 := Nat.mod_lt xs.length hw
  rw [Nat.mul_comm] at h1
  have hm0 : xs.length / w * w = 0 ∨ w ≤ xs.length / w * w := by
    rcases Nat.eq_zero_or_pos (xs.length / w) with h | h
    · left; rw [h, Nat.zero_mul]
    · right; exact Nat.le_mul_of_pos_left w h
  have he := simdIter_end_exact (represents_slice c xs) (xs.length / w * w) dx hu
  simp only [SIMDZippedIterator.end_, Zip.end_, SIMDIterable.scalarPos, ok_bind, he]
  by_cases ha : xs.length % w = 0
  · rw [if_pos ha, if_pos (by omega)]
    simp only [ok_bind]
    rw [show xs.length / w * w = xs.length by omega]
  · rw [if_neg ha, if_neg (by omega), if_neg (by omega), if_neg (by omega),
      show xs.length - xs.length / w * w = xs.length % w by omega]
    simp only [ok_bind, SliceRest.end_eq c r xs.length hw hm hr ha, leftover]

/-- **C123**, `simd_do_each`, any closure, any number of slices of any lengths and element types. -/
theorem C123_do_each_many {σ : Type} (c : Cfg) (xs : List α) (dx : Vector α w) (r : R) (hw : 0 < w)
    (hu : xs.length + w < c.usize) (hr : ∀ n ∈ SliceRest.lens w r, n + w < c.usize)
    (fuel : Nat) (st : σ) (f : FnMut σ (Vector α w × γ) Unit) (hfuel : xs.length / w < fuel) :
    (do
      let z ← zip c (simdIter xs dx) r
      let (_, st') ← zsimdDoEach c fuel z st f
      ok st') =
      if ∃ n ∈ SliceRest.lens w r, n / w ≠ xs.length / w then panic
      else (do
        let (_, st') ← callAll f st (fullTuples w xs r)
        (if xs.length % w = 0 then ok st'
          else (do
            let v ← SliceRest.tails w c xs.length r
            let (_, st'') ← f st' (padFront dx (leftover w xs), v)
            ok st''))) := by
  rw [C123_zip_many c xs dx r hw hu hr]
  split
  · rfl
  · rename_i hm
    have hm : ∀ n ∈ SliceRest.lens w r, n / w = xs.length / w := by
      exact fun n hn => Classical.byContradiction fun h => hm ⟨n, hn, h⟩
    have h1 := many_runs c xs dx r hw hu hr hm (xs.length / w) (Nat.le_refl _)
    rw [Nat.sub_self, Nat.zero_mul, List.drop_zero] at h1
    simp only [ok_bind, simdIter, zsimdDoEach,
      zdoEachLoop_runs f h1 fuel st (by rw [fullTuples_length xs r hw hm]; exact hfuel), bind_assoc,
      many_end c xs dx r hw hu hr hm]
    congr 1
    funext p
    by_cases ha : xs.length % w = 0
    · simp [ha]
    · simp only [ha, if_false, bind_assoc, ok_bind]

/-- **C123**, `simd_map` of any function of the tuples and `scalar_collect`: the result has the
length of the first slice. -/
theorem C123_collect_many {β : Type} [Packable β] (c : Cfg) (xs : List α) (dx : Vector α w) (r : R)
    (hw : 0 < w) (hu : xs.length + w < c.usize) (hr : ∀ n ∈ SliceRest.lens w r, n + w < c.usize)
    (fuel : Nat) (F : Vector α w × γ → Vector β w) (hs : 0 < Packable.size β)
    (hsize : Packable.size α = Packable.size β) (hvec : w * Packable.size α < c.usize)
    (hfuel : xs.length / w < fuel) :
    (do
      let z ← zip c (simdIter xs dx) r
      let (_, out) ← scalarCollect c fuel (zsimdMap z () (pureFn F))
      ok out) =
      if ∃ n ∈ SliceRest.lens w r, n / w ≠ xs.length / w then panic
      else (do
        let t ← (if xs.length % w = 0 then ok [] else do
          let v ← SliceRest.tails w c xs.length r
          ok ((F (padFront dx (leftover w xs), v)).toList.drop (w - xs.length % w)))
        ok ((lanes ((fullTuples w xs r).map F) ++ t).map some)) := by
  rw [C123_zip_many c xs dx r hw hu hr]
  split
  · rfl
  · rename_i hm
    have hm : ∀ n ∈ SliceRest.lens w r, n / w = xs.length / w := by
      exact fun n hn => Classical.byContradiction fun h => hm ⟨n, hn, h⟩
    have h1 := many_runs c xs dx r hw hu hr hm (xs.length / w) (Nat.le_refl _)
    rw [Nat.sub_self, Nat.zero_mul, List.drop_zero] at h1
    have hl := fullTuples_length xs r hw hm
    have h2 := Nat.div_add_mod xs.length w
    have h3 := Nat.mod_lt xs.length hw
    rw [Nat.mul_comm] at h2
    have hle : (w - xs.length % w) * Packable.size α ≤ w * Packable.size α :=
      Nat.mul_le_mul_right _ (by omega)
    have hrn := zipMap_runs (pureFn F) h1 ()
    rw [mapRun_pure] at hrn
    simp only [ok_bind] at hrn
    simp only [ok_bind, zsimdMap, simdIter]
    rw [scalarCollect_emits ⟨_, hrn, rfl⟩ fuel (by simp [hl]; omega) hw (L := xs.length / w)
      (by exact (simdIter_driver (represents_slice c xs) dx hw hu).len 0) (by simp [hl])
      (by rw [Nat.succ_mul]; omega)]
    · simp only [ok_bind, bind_assoc, SIMDIterator.end_, SIMDZipMap.end_,
        many_end c xs dx r hw hu hr hm]
      by_cases ha : xs.length % w = 0
      · simp only [ha, if_true, ok_bind]
        simp
      · simp only [ha, if_false, bind_assoc, ok_bind, SIMDZippedIterator.size]
        congr 1
        funext v
        rw [umul_ok (by omega)]
        simp only [ok_bind]
        rw [udiv_ok hs, hsize, Nat.mul_div_cancel _ hs]
        simp only [ok_bind, pureFn, Option.map_some, Option.getD_some]
    · intro p n it e
      simp only [ok_bind, SIMDIterator.end_, SIMDZipMap.end_, many_end c xs dx r hw hu hr hm] at e
      by_cases ha : xs.length % w = 0
      · simp [ha] at e
      · simp only [ha, if_false, bind_assoc, ok_bind, SIMDZippedIterator.size] at e
        rw [umul_ok (by omega)] at e
        simp only [ok_bind] at e
        rw [udiv_ok hs, hsize, Nat.mul_div_cancel _ hs] at e
        cases hst : SliceRest.tails w c xs.length r <;> simp [hst, pureFn] at e
        omega
    · intro it e
      simp only [ok_bind, SIMDIterator.end_, SIMDZipMap.end_, many_end c xs dx r hw hu hr hm] at e
      by_cases ha : xs.length % w = 0
      · simp only [ha, if_true, ok_bind, ok.injEq, Prod.mk.injEq, true_and] at e
        rw [← e, List.length_map, hl]
        exact (simdIter_driver (represents_slice c xs) dx hw hu).len _
      · simp only [ha, if_false, bind_assoc, ok_bind, SIMDZippedIterator.size] at e
        rw [umul_ok (by omega)] at e
        simp only [ok_bind] at e
        rw [udiv_ok hs] at e
        cases hst : SliceRest.tails w c xs.length r <;> simp [hst, pureFn] at e

/-- **C123**: a pass with a closure which always succeeds has undefined behaviour exactly if the build
is a release build, `zip` accepts the slices, the first one has a partial vector and another one is
longer, but not longer than a vector. It panics exactly if `zip` does or, in a debug build, the first
slice has a partial vector and another one has another length. -/
theorem C123_outcome_many {σ : Type} (c : Cfg) (xs : List α) (dx : Vector α w) (r : R) (hw : 0 < w)
    (hu : xs.length + w < c.usize) (hr : ∀ n ∈ SliceRest.lens w r, n + w < c.usize)
    (fuel : Nat) (st : σ) (f : FnMut σ (Vector α w × γ) Unit) (hfuel : xs.length / w < fuel)
    (hf : ∀ st v, ∃ st', f st v = ok ((), st')) :
    (do
      let z ← zip c (simdIter xs dx) r
      let _ ← zsimdDoEach c fuel z st f
      ok ()) =
      if (∃ n ∈ SliceRest.lens w r, n / w ≠ xs.length / w) ∨
        (c.debug = true ∧ xs.length % w ≠ 0 ∧ ∃ n ∈ SliceRest.lens w r, n ≠ xs.length) then panic
      else if xs.length % w ≠ 0 ∧ ∃ n ∈ SliceRest.lens w r, xs.length < n ∧ n ≤ w then ub
      else ok () := by
  have hall : ∀ (vs : List (Vector α w × γ)) st, ∃ us st', callAll f st vs = ok (us, st') := by
    intro vs
    induction vs with
    | nil => intro st; exact ⟨[], st, rfl⟩
    | cons v vs ih =>
      intro st
      obtain ⟨s1, e1⟩ := hf st v
      obtain ⟨us, s2, e2⟩ := ih s1
      exact ⟨() :: us, s2, by simp [callAll, e1, e2]⟩
  have key := congrArg (· >>= fun _ => ok ()) (C123_do_each_many c xs dx r hw hu hr fuel st f hfuel)
  simp only [bind_assoc, ok_bind] at key
  rw [key]
  by_cases hm : ∃ n ∈ SliceRest.lens w r, n / w ≠ xs.length / w
  · rw [if_pos hm, if_pos (.inl hm)]; rfl
  · rw [if_neg hm]
    obtain ⟨us, st', e⟩ := hall (fullTuples w xs r) st
    rw [e]
    simp only [ok_bind]
    by_cases ha : xs.length % w = 0
    · rw [if_pos ha, if_neg (fun h => h.elim hm fun h => h.2.1 ha), if_neg fun h => h.1 ha]
      rfl
    · rw [if_neg ha]
      have h1 := SliceRest.tails_outcome (w := w) c xs.length r
      have h2 : ∀ v, (f st' (padFront dx (leftover w xs), v) >>= fun p => ok p.2) >>=
          (fun _ => ok ()) = ok () := by
        intro v
        obtain ⟨s, e⟩ := hf st' (padFront dx (leftover w xs), v)
        rw [e]; rfl
      rw [bind_assoc]
      simp only [h2, h1]
      by_cases hd : c.debug = true ∧ ∃ n ∈ SliceRest.lens w r, n ≠ xs.length
      · rw [if_pos hd, if_pos (.inr ⟨hd.1, ha, hd.2⟩)]
      · have hR : ¬ ((∃ n ∈ SliceRest.lens w r, n / w ≠ xs.length / w) ∨
            (c.debug = true ∧ xs.length % w ≠ 0 ∧ ∃ n ∈ SliceRest.lens w r, n ≠ xs.length)) :=
          fun h => h.elim hm fun h => hd ⟨h.1, h.2.2⟩
        rw [if_neg hd, if_neg hR]
        by_cases h3 : ∃ n ∈ SliceRest.lens w r, xs.length < n ∧ n ≤ w
        · rw [if_pos h3, if_pos ⟨ha, h3⟩]
        · rw [if_neg h3, if_neg fun h => h3 h.2]

end

/-- Three slices of 5, 6 and 4 elements, four lanes, release build: the last element of the first is
combined with the last one of the second and with a default. -/
example : (do
    let z ← zip release64 (simdIter [1#8, 2, 3, 4, 5] #v[0, 0, 0, 0])
      (simdIter [1#16, 2, 3, 4, 5, 6] #v[0, 0, 0, 0], simdIter [1#8, 2, 3, 4] #v[9, 9, 9, 9], ())
    let (_, st') ← zsimdDoEach release64 9 z [] (fun log v => ok ((), log ++ [v]))
    ok st') = ok [(#v[1, 2, 3, 4], #v[1, 2, 3, 4], #v[1, 2, 3, 4], ()),
      (#v[0, 0, 0, 5], #v[0, 0, 0, 6], #v[9, 9, 9, 9], ())] := by decide +kernel

/-- Slices of 1, 1 and 2 elements: undefined behaviour in a release build. -/
example : (do
    let z ← zip release64 (simdIter [1#8] #v[0, 0, 0, 0])
      (simdIter [1#8] #v[0, 0, 0, 0], simdIter [1#8, 2] #v[0, 0, 0, 0], ())
    let _ ← zsimdDoEach release64 9 z () (fun _ _ => ok ((), ()))
    ok ()) = ub := by
  rw [C123_outcome_many _ _ _ _ (by decide) (by decide) (by decide) _ _ _ (by decide)
    (fun _ _ => ⟨(), rfl⟩)]
  decide

end Faster
