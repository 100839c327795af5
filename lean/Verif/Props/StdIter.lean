import Verif.StdIter
import Verif.Props.ForLoops
import Verif.Props.LenAt
import Verif.Props.ZipMany
import Verif.Props.UnpackAny
/-
C148: the provided methods of `Iterator` and `ExactSizeIterator`, and the lengths of the standard
adapters, for the iterators of the crate.
-/
namespace Faster
open Res SIMDSized SIMDIterable SIMDIterator

/-! ### Methods which call `next` -/

section
variable {I A : Type} {next : I → Res (Option A × I)}

/-- `next` returns the elements of a list and then `None`, which leaves the iterator `it'`. -/
inductive Delivers (next : I → Res (Option A × I)) : I → List A → I → Prop where
  | done {it it' : I} : next it = ok (none, it') → Delivers next it [] it'
  | step {it it1 it' : I} {v : A} {vs : List A} :
      next it = ok (some v, it1) → Delivers next it1 vs it' → Delivers next it (v :: vs) it'

/-- **C148**: `count` returns the number of elements. -/
theorem C148_count {it it' : I} {vs : List A} (h : Delivers next it vs it') :
    ∀ (fuel n : Nat), vs.length < fuel → stdCount next fuel it n = ok (n + vs.length) := by
  induction h with
  | done h =>
    intro fuel n hf
    obtain ⟨f, rfl⟩ : ∃ f, fuel = f + 1 := ⟨fuel - 1, by omega⟩
    simp [stdCount, h]
  | step h _ ih =>
    intro fuel n hf
    obtain ⟨f, rfl⟩ : ∃ f, fuel = f + 1 := ⟨fuel - 1, by omega⟩
    simp only [List.length_cons] at hf ⊢
    simp only [stdCount, h, ok_bind]
    rw [ih f (n + 1) (by omega)]
    congr 1
    omega

/-- **C148**: `collect` returns the elements in order. -/
theorem C148_collect {it it' : I} {vs : List A} (h : Delivers next it vs it') :
    ∀ (fuel : Nat) (out : List A), vs.length < fuel →
      stdCollect next fuel it out = ok (out ++ vs) := by
  induction h with
  | done h =>
    intro fuel n hf
    obtain ⟨f, rfl⟩ : ∃ f, fuel = f + 1 := ⟨fuel - 1, by omega⟩
    simp [stdCollect, h]
  | step h _ ih =>
    intro fuel out hf
    obtain ⟨f, rfl⟩ : ∃ f, fuel = f + 1 := ⟨fuel - 1, by omega⟩
    simp only [List.length_cons] at hf
    simp only [stdCollect, h, ok_bind]
    rw [ih f _ (by omega), List.append_assoc]
    rfl

/-- **C148**: `last` returns the last element. -/
theorem C148_last {it it' : I} {vs : List A} (h : Delivers next it vs it') :
    ∀ (fuel : Nat) (v : Option A), vs.length < fuel →
      stdLast next fuel it v = ok (vs.getLast?.or v) := by
  induction h with
  | done h =>
    intro fuel n hf
    obtain ⟨f, rfl⟩ : ∃ f, fuel = f + 1 := ⟨fuel - 1, by omega⟩
    simp [stdLast, h]
  | @step _ _ _ v vs h _ ih =>
    intro fuel out hf
    obtain ⟨f, rfl⟩ : ∃ f, fuel = f + 1 := ⟨fuel - 1, by omega⟩
    simp only [List.length_cons] at hf
    simp only [stdLast, h, ok_bind]
    rw [ih f _ (by omega), List.getLast?_cons]
    cases vs.getLast? <;> rfl

/-- **C148**: `nth(n)` returns element `n`, and the iterator goes on behind it. -/
theorem C148_nth {it it' : I} {vs : List A} (h : Delivers next it vs it') :
    ∀ (n : Nat), ∃ it1, stdNth next n it = ok (vs[n]?, it1) ∧
      if n < vs.length then Delivers next it1 (vs.drop (n + 1)) it' else it1 = it' := by
  induction h with
  | @done it it' h =>
    intro n
    refine ⟨it', ?_, by simp⟩
    cases n <;> simp [stdNth, h]
  | @step it it1 it' v vs h h' ih =>
    intro n
    cases n with
    | zero => exact ⟨it1, by simp [stdNth, h], by simpa using h'⟩
    | succ n =>
      obtain ⟨it2, h1, h2⟩ := ih n
      refine ⟨it2, by simp [stdNth, h, h1], ?_⟩
      simpa using h2

end

/-! ### The iterators of the crate -/

section
variable {T α : Type} {w : Nat} [SIMDSized T] [SIMDIterator T α w]

theorem runs_delivers {c : Cfg} {it it' : T} {vs : List (Vector α w)} {r : Res T}
    (h : Runs c it vs r) (hr : r = ok it') : Delivers (SIMDIterable.next c) it vs it' := by
  induction h with
  | done h => cases hr; exact .done h
  | @fail it r h hr' => cases r <;> simp [Res.castFail] at hr
  | step h _ ih => exact .step h (ih hr)

theorem zruns_delivers {Z γ : Type} [SIMDZippedIterator Z γ] {c : Cfg} {z z' : Z} {vs : List γ}
    {r : Res Z} (h : ZRuns c z vs r) (hr : r = ok z') :
    Delivers (SIMDZippedIterator.next c) z vs z' := by
  induction h with
  | done h => cases hr; exact .done h
  | @fail it r h hr' => cases r <;> simp [Res.castFail] at hr
  | step h _ ih => exact .step h (ih hr)

/-- Slices, from any position: every complete vector. -/
theorem delivers_slice (c : Cfg) (l : List α) (d : Vector α w) (p : Nat) (hw : 0 < w)
    (hu : l.length + w < c.usize) (hp : p + w < c.usize) :
    ∃ it', Delivers (SIMDIterable.next c) (⟨p, ⟨l⟩, d⟩ : SIMDIter (Slice α w) α w)
      (fullWindows w (l.drop p)) it' :=
  ⟨_, runs_delivers (simdIter_runs (represents_slice c l) d hw hu p hp) rfl⟩

/-- Maps with a closure which succeeds: its results. -/
theorem delivers_map {β σ : Type} {w' : Nat} [Packable α] [Packable β] {c : Cfg} {it it' : T}
    {vs : List (Vector α w)} (h : Runs c it vs (ok it')) (f : FnMut σ (Vector α w) (Vector β w'))
    (st : σ) {q : List (Vector β w') × σ} (hf : callAll f st vs = ok q) :
    ∃ m, Delivers (SIMDIterable.next c) (simdMap it st f) q.1 m := by
  rw [callAll_mapRun] at hf
  have hr := simdMap_runs f h st
  cases e : (mapRun f st vs).2 with
  | ok st' =>
    rw [e] at hf hr
    simp only [ok_bind, ok.injEq] at hf hr
    subst hf
    exact ⟨_, runs_delivers hr rfl⟩
  | _ => rw [e] at hf; simp at hf

end

section
variable {α : Type} {w : Nat}

/-- **C148**, slices: `count` agrees with `len` exactly as long as no complete vector has been
consumed. -/
theorem C148_count_len_iff (c : Cfg) (fuel : Nat) (l : List α) (d : Vector α w) (p : Nat) (hw : 0 < w)
    (hu : l.length + w < c.usize) (hp : p ≤ l.length) (hf : l.length / w < fuel) :
    stdCount (SIMDIterable.next c) fuel (⟨p, ⟨l⟩, d⟩ : SIMDIter (Slice α w) α w) 0 =
      SIMDIterable.len c (⟨p, ⟨l⟩, d⟩ : SIMDIter (Slice α w) α w) ↔ p ≤ l.length % w := by
  have hr := simdIter_runs (represents_slice c l) d hw hu p (by omega)
  have hlen : (fullWindows w (l.drop p)).length < fuel := by
    rw [fullWindows_length, List.length_drop]
    have := Nat.div_le_div_right (c := w) (Nat.sub_le l.length p)
    omega
  rw [C148_count (runs_delivers hr rfl) fuel 0 hlen, ← C16_slice_iff c l d p hp hw hu]
  constructor
  · intro h
    exact ⟨_, _, hr, by rw [← h, Nat.zero_add]⟩
  · rintro ⟨vs, r, h1, h2⟩
    have := C148_count (runs_delivers h1 rfl) (vs.length + fuel) 0 (by omega)
    have h3 := C148_count (runs_delivers hr rfl) (vs.length + fuel) 0 (by omega)
    rw [this] at h3
    rw [h2, ← h3, Nat.zero_add]

end

/-! ### Sizes -/

/-- **C148 is false** for every iterator of the crate in every state: `ExactSizeIterator` requires
that `size_hint` returns the exact size. -/
theorem C148_size_hint_false {I : Type} (it : I) (n : Nat) : sizeHint it ≠ (n, some n) := by
  simp [sizeHint]

/-- **C148**, exactly: the length of `take(n)` is 0 for `n = 0`, and asking for it panics otherwise. -/
theorem C148_take_len {I : Type} (it : I) (n : Nat) :
    hintLen (takeHint n (sizeHint it)) = if n = 0 then ok 0 else panic := by
  by_cases h : n = 0 <;> simp [hintLen, takeHint, sizeHint, h]

/-- **C148**, exactly: asking `skip(n)` for its length panics, and so does `peekable()`. -/
theorem C148_skip_len {I : Type} (it : I) (n : Nat) :
    hintLen (skipHint n (sizeHint it)) = panic ∧ hintLen (peekHint (sizeHint it)) = panic := by
  simp [hintLen, skipHint, peekHint, sizeHint]

/-- **C148**, exactly: asking a standard `zip` with an iterator of known length `n` for its length
panics unless that is 0, on either side; it always panics for two iterators of the crate. -/
theorem C148_zip_len {I J : Type} (it : I) (jt : J) (n : Nat) :
    hintLen (zipHint (sizeHint it) (n, some n)) = (if n = 0 then ok 0 else panic) ∧
    hintLen (zipHint (n, some n) (sizeHint it)) = (if n = 0 then ok 0 else panic) ∧
    hintLen (zipHint (sizeHint it) (sizeHint jt)) = panic := by
  by_cases h : n = 0 <;> simp [hintLen, zipHint, sizeHint, h]

/-- With an exact size the adapters have exact sizes, so that the panics are due to the iterators of
the crate. -/
theorem C148_adapters (m n : Nat) :
    hintLen (takeHint n (m, some m)) = ok (min m n) ∧ hintLen (skipHint n (m, some m)) = ok (m - n) ∧
    hintLen (peekHint (m, some m)) = ok m ∧
    hintLen (zipHint (m, some m) (n, some n)) = ok (min m n) := by
  simp [hintLen, takeHint, skipHint, peekHint, zipHint]

/-- **C148**, the part which holds, for slices, maps of slices and zips of slices which have not
been used: `count`, `collect`, `last` and `nth` see exactly the complete vectors. Missing:
`size_hint`, and `len` after the first vector. -/
theorem C148_slice_partial {α : Type} {w : Nat} (c : Cfg) (fuel : Nat) (l : List α) (d : Vector α w)
    (hw : 0 < w) (hu : l.length + w < c.usize) (hf : l.length / w < fuel) (n : Nat) :
    stdCount (SIMDIterable.next c) fuel (simdIter l d) 0 = ok (fullWindows w l).length ∧
    SIMDIterable.len c (simdIter l d) = ok (fullWindows w l).length ∧
    stdCollect (SIMDIterable.next c) fuel (simdIter l d) [] = ok (fullWindows w l) ∧
    stdLast (SIMDIterable.next c) fuel (simdIter l d) none = ok (fullWindows w l).getLast? ∧
    ∃ it, stdNth (SIMDIterable.next c) n (simdIter l d) = ok ((fullWindows w l)[n]?, it) := by
  obtain ⟨it', h⟩ := delivers_slice c l d 0 hw hu (by omega)
  rw [List.drop_zero] at h
  have hl := fullWindows_length w l
  obtain ⟨it1, h1, -⟩ := C148_nth h n
  refine ⟨?_, ?_, ?_, ?_, it1, h1⟩
  · rw [simdIter, C148_count h fuel 0 (by omega), Nat.zero_add]
  · rw [hl]; exact (simdIter_driver (represents_slice c l) d hw hu).len 0
  · rw [simdIter, C148_collect h fuel [] (by omega)]; rfl
  · rw [simdIter, C148_last h fuel none (by omega)]; simp

/-- **C148**, the part which holds, for maps with any closure which succeeds. -/
theorem C148_map_partial {α β σ : Type} {w w' : Nat} [Packable α] [Packable β] (c : Cfg) (fuel : Nat)
    (l : List α) (d : Vector α w) (f : FnMut σ (Vector α w) (Vector β w')) (st : σ)
    {q : List (Vector β w') × σ} (hw : 0 < w) (hu : l.length + w < c.usize) (hf : l.length / w < fuel)
    (hq : callAll f st (fullWindows w l) = ok q) (n : Nat) :
    stdCount (SIMDIterable.next c) fuel (simdMap (simdIter l d) st f) 0 = ok (l.length / w) ∧
    SIMDIterable.len c (simdMap (simdIter l d) st f) = ok (l.length / w) ∧
    stdCollect (SIMDIterable.next c) fuel (simdMap (simdIter l d) st f) [] = ok q.1 ∧
    stdLast (SIMDIterable.next c) fuel (simdMap (simdIter l d) st f) none = ok q.1.getLast? ∧
    ∃ it, stdNth (SIMDIterable.next c) n (simdMap (simdIter l d) st f) = ok (q.1[n]?, it) := by
  have hr := simdIter_runs (represents_slice c l) d hw hu 0 (by omega)
  rw [List.drop_zero] at hr
  obtain ⟨m, h⟩ := delivers_map hr f st hq
  have hl : q.1.length = l.length / w := by
    rw [callAll_length f st _ hq, fullWindows_length]
  obtain ⟨it1, h1, -⟩ := C148_nth h n
  refine ⟨?_, ?_, ?_, ?_, it1, h1⟩
  · rw [simdIter, C148_count h fuel 0 (by omega), Nat.zero_add, hl]
  · exact (simdIter_driver (represents_slice c l) d hw hu).len 0
  · rw [simdIter, C148_collect h fuel [] (by omega)]; rfl
  · rw [simdIter, C148_last h fuel none (by omega)]; simp

/-- **C148**, the part which holds, for zips of any number of slices. -/
theorem C148_zip_partial {α R γ : Type} {w : Nat} [Packable α] [ZipRest R γ] [SliceRest R γ w]
    (c : Cfg) (fuel : Nat) (xs : List α) (dx : Vector α w) (r : R) (hw : 0 < w)
    (hu : xs.length + w < c.usize) (hr : ∀ n ∈ SliceRest.lens w r, n + w < c.usize)
    (hm : ∀ n ∈ SliceRest.lens w r, n / w = xs.length / w) (hf : xs.length / w < fuel) (n : Nat) :
    let z : Zip (SIMDIter (Slice α w) α w) R := ⟨simdIter xs dx, r⟩
    zip c (simdIter xs dx) r = ok z ∧
    stdCount (SIMDZippedIterator.next c) fuel z 0 = ok (xs.length / w) ∧
    SIMDZippedIterator.len c z = ok (xs.length / w) ∧
    stdCollect (SIMDZippedIterator.next c) fuel z [] = ok (fullTuples w xs r) ∧
    stdLast (SIMDZippedIterator.next c) fuel z none = ok (fullTuples w xs r).getLast? ∧
    ∃ z', stdNth (SIMDZippedIterator.next c) n z = ok ((fullTuples w xs r)[n]?, z') := by
  intro z
  have hz := many_runs c xs dx r hw hu hr hm (xs.length / w) (Nat.le_refl _)
  rw [Nat.sub_self, Nat.zero_mul, List.drop_zero] at hz
  have hl := fullTuples_length xs r hw hm
  have h := zruns_delivers hz rfl
  obtain ⟨it1, h1, -⟩ := C148_nth h n
  refine ⟨?_, ?_, ?_, ?_, ?_, it1, h1⟩
  · rw [C123_zip_many c xs dx r hw hu hr, if_neg]
    rintro ⟨k, hk, hne⟩
    exact hne (hm k hk)
  · simp only [z, simdIter]
    rw [C148_count h fuel 0 (by omega), Nat.zero_add, hl]
  · exact (simdIter_driver (represents_slice c xs) dx hw hu).len 0
  · simp only [z, simdIter]
    rw [C148_collect h fuel [] (by omega)]; rfl
  · simp only [z, simdIter]
    rw [C148_last h fuel none (by omega)]; simp

/-- **C148**, strided iterators: `count` may be one less than `len` (`C128_stride_missed`). -/
theorem C148_stride_count {α : Type} {w : Nat} [Packable α] (c : Cfg) (fuel : Nat) (l : List α)
    {s k : Nat} (hk : k < s) (d : Vector α w) (hw : 0 < w) (hu : l.length + s * (w + 1) < c.usize)
    (hf : l.length / s / w < fuel) :
    stdCount (SIMDIterable.next c) fuel (strideAt (⟨l⟩ : Slice α w) s k d) 0 =
      ok ((l.length - 1 - k) / s / w) ∧
    SIMDIterable.len c (strideAt (⟨l⟩ : Slice α w) s k d) = ok (l.length / s / w) := by
  obtain ⟨it', h⟩ := stride_runs c l hk d hw hu
  have hle := stride_visits_le (s := s) (k := k) (len := l.length) (w := w)
  have hl : ((fullWindows w (strided s k l hk)).take ((l.length - 1 - k) / s / w)).length =
      (l.length - 1 - k) / s / w := by
    rw [List.length_take, fullWindows_length, strided_length]
    omega
  constructor
  · rw [C148_count (runs_delivers h rfl) fuel 0 (by omega), Nat.zero_add, hl]
  · have := (stride_driver (represents_slice c l) hk d hw hu).len 0
    simpa [strideAt] using this

/-- **C148**, `SIMDAdapter`: `count` is half of `len`, rounded up. -/
theorem C148_adapter_count {α : Type} {w : Nat} (c : Cfg) (fuel : Nat) (l : List α) (d : Vector α w)
    (hw : 0 < w) (hu : 2 * l.length + 2 * w < c.usize) (hf : l.length / w < fuel) :
    stdCount (SIMDIterable.next c) fuel (simdAdapter l d) 0 = ok ((l.length / w + 1) / 2) ∧
    SIMDIterable.len c (simdAdapter l d) = ok (l.length / w) := by
  obtain ⟨a', h, -⟩ := C30_adapter_exact c l d hw hu
  have hle : (l.length / w + 1) / 2 ≤ l.length / w := by
    generalize l.length / w = m
    omega
  have hl : ((fullWindows w l).take ((l.length / w + 1) / 2)).length = (l.length / w + 1) / 2 := by
    rw [List.length_take, fullWindows_length, Nat.min_eq_left hle]
  constructor
  · rw [C148_count (runs_delivers h rfl) fuel 0 (by omega), Nat.zero_add, hl]
  · exact (C16_adapter c l d d 0 hw (by omega)).1

/-- Non-vacuity: a slice of five elements and vectors of two lanes. -/
example : stdCollect (SIMDIterable.next debug64) 9 (simdIter [1#8, 2, 3, 4, 5] #v[0, 0]) [] =
      ok [#v[1, 2], #v[3, 4]] ∧
    stdNth (SIMDIterable.next debug64) 1 (simdIter [1#8, 2, 3, 4, 5] #v[0, 0]) =
      ok (some #v[3, 4], ⟨4, ⟨[1, 2, 3, 4, 5]⟩, #v[0, 0]⟩) ∧
    stdNth (SIMDIterable.next debug64) 2 (simdIter [1#8, 2, 3, 4, 5] #v[0, 0]) =
      ok (none, ⟨4, ⟨[1, 2, 3, 4, 5]⟩, #v[0, 0]⟩) := by
  refine ⟨?_, ?_, ?_⟩ <;> decide +kernel

end Faster
