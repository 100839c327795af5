import Verif.Props.FillAny
import Verif.Props.ForLoops
import Verif.Props.UnpackAny
/-
C08, C130: what `scalar_fill` of a map does, for every buffer, every closure and all sizes of vectors:
slices, strided iterators, and zips which start with one of them.
-/
namespace Faster
open Res SIMDSized SIMDIterable SIMDIterator

section
variable {I β σ δ : Type} {w : Nat} [SIMDSized I] [SIMDIterator I β w] [Packable β]

/-- A buffer which holds all results. -/
theorem fill_fits {c : Cfg} (f : FnMut σ δ (Vector β w)) (st : σ) (vs : List δ) (t : Option (δ × Nat))
    (mk : σ → I) {m : I}
    (h : Emits c m (mapRun f st vs).1 ((mapRun f st vs).2 >>= fun st' => match t with
      | none => ok (none, mk st')
      | some (p, n) => f st' p >>= fun q => ok (some (q.1, n), mk q.2)))
    (fuel : Nat) (buf : List β) (hf : vs.length < fuel) (hw : 0 < w)
    (hb : vs.length * w ≤ buf.length)
    (hn : ∀ p n, t = some (p, n) → n ≤ w ∧ vs.length * w + w ≤ buf.length + n)
    (hu : vs.length * w + w < c.usize) :
    scalarFill c fuel m buf = callAll f st (zwithTail vs t) >>= fun q =>
      ok (mk q.2, splice buf 0 (unpad (zpadOf t) q.1)) := by
  have hlen := mapRun_length_le f st vs
  have hmul : (mapRun f st vs).1.length * w ≤ vs.length * w := Nat.mul_le_mul_right w hlen
  rw [scalarFill_emits h fuel buf (by omega) hw (by omega) (by omega)]
  · rw [zwithTail, callAll_append, callAll_mapRun f st vs]
    rcases t with _ | ⟨p, n⟩
    · simp only [bind_assoc, ok_bind, Option.toList_none, List.map_nil, callAll, zpadOf,
        Option.map_none, Option.getD_none, unpad_zero, List.append_nil]
    · simp only [bind_assoc, ok_bind, Option.toList_some, List.map_cons, List.map_nil, callAll,
        zpadOf, Option.map_some, Option.getD_some, unpad_concat]
  · intro p n it2 e
    rcases t with _ | ⟨p1, n1⟩
    · cases h2 : (mapRun f st vs).2 with
      | ok a => simp [h2] at e
      | _ => simp [h2] at e
    · cases h2 : (mapRun f st vs).2 with
      | ok a =>
        simp only [h2, ok_bind] at e
        cases h3 : f a p1 with
        | ok q =>
          simp only [h3, ok_bind, ok.injEq, Prod.mk.injEq, Option.some.injEq] at e
          rw [← e.1.2]
          have := hn p1 n1 rfl
          omega
        | _ => simp [h3] at e
      | _ => simp [h2] at e

/-- All cases, for any iterator which calls `f` on `vs` in `next` and on the vector of `t` in `end`. -/
theorem fill_outcome {c : Cfg} (f : FnMut σ δ (Vector β w)) (st : σ) (vs : List δ)
    (t : Option (δ × Nat)) (mk : σ → I) {m : I}
    (h : Emits c m (mapRun f st vs).1 ((mapRun f st vs).2 >>= fun st' => match t with
      | none => ok (none, mk st')
      | some (p, n) => f st' p >>= fun q => ok (some (q.1, n), mk q.2)))
    (fuel : Nat) (buf : List β) (hf : vs.length < fuel) (hw : 0 < w)
    (hu : buf.length + (vs.length + 2) * w + zpadOf t < c.usize) :
    scalarFill c fuel m buf =
      if buf.length < vs.length * w then
        callAll f st (vs.take (buf.length / w + 1)) >>= fun _ => badAccess c
      else callAll f st (zwithTail vs t) >>= fun q =>
        if w < zpadOf t then
          if vs.length = 0 then badAccess c
          else if vs.length * w < zpadOf t then panic
          else ok (mk q.2, splice buf 0 (clobber (zpadOf t) q.1))
        else if t.isSome ∧ buf.length < vs.length * w + (w - zpadOf t) then
          if vs.length = 0 then panic else badAccess c
        else ok (mk q.2, splice buf 0 (unpad (zpadOf t) q.1)) := by
  rw [Nat.add_mul] at hu
  by_cases hb : buf.length < vs.length * w
  · rw [if_pos hb]
    exact fill_short_full f st vs h fuel buf hf hw hb (by omega)
  rw [if_neg hb]
  rcases t with _ | ⟨p, n⟩
  · have e : zpadOf (none : Option (δ × Nat)) = 0 := rfl
    have := fill_fits f st vs none mk h fuel buf hf hw (by omega) (by simp) (by omega)
    refine this.trans ?_
    congr 1
  · have e : zpadOf (some (p, n)) = n := rfl
    have e2 : zwithTail vs (some (p, n)) = vs ++ [p] := rfl
    rw [e] at hu
    simp only [e]
    by_cases hover : w < n
    · simp only [hover, if_true]
      rw [e2]
      exact fill_over f st vs p n mk h fuel buf hf hw hover (by omega) (by omega)
    · simp only [hover, if_false, Option.isSome_some, true_and]
      by_cases hs : buf.length < vs.length * w + (w - n)
      · simp only [hs, if_true]
        rw [e2]
        exact fill_short_tail f st vs p n mk h fuel buf hf hw (by omega) (by omega) hs (by omega)
      · simp only [hs, if_false]
        exact fill_fits f st vs _ mk h fuel buf hf hw (by omega)
          (by rintro _ _ ⟨⟩; omega) (by omega)

end

section
variable {I α β σ : Type} {w w' : Nat} [SIMDSized I] [SIMDIterator I α w] [Packable α] [Packable β]
  {c : Cfg} {S : Nat → I} {l : List α} {d : Vector α w} {more : Nat → Prop}

omit [Packable α] in
/-- The number of vectors which `next` delivers is determined by `more`. -/
theorem Driver.emits_exact (h : Driver c S l d more) (hw : 0 < w) (k : Nat)
    (hk : ∀ i, i < k → more (i * w)) (hk' : ¬ more (k * w)) :
    Driver.count w l k ∧
      Emits c (S 0) ((fullWindows w l).take k) (ok (tailFrom d l k, S l.length)) := by
  obtain ⟨n, hc, he⟩ := h.emits hw
  suffices e : n = k by subst e; exact ⟨hc, he⟩
  have hr := h.runs_exact hw k 0 (Nat.zero_le _) (by simpa using hk) (by simpa using hk')
  rw [List.drop_zero] at hr
  obtain ⟨r, h1, -⟩ := he
  have e := congrArg List.length (Runs.unique h1 hr).1
  have hkl : k ≤ l.length / w := by
    cases k with
    | zero => exact Nat.zero_le _
    | succ k =>
      obtain ⟨hle, -⟩ := h.next_some _ (hk k (by omega))
      rw [Nat.le_div_iff_mul_le hw, Nat.succ_mul]
      exact hle
  have := (Driver.count_cases hw hc).1
  rw [List.length_take, List.length_take, fullWindows_length] at e
  omega

omit [Packable α] in
theorem tailFrom_isSome (d : Vector α w) (l : List α) (k : Nat) :
    (tailFrom d l k).isSome = true ↔ k * w < l.length := by
  unfold tailFrom
  split <;> simp [*]

/-- **C08, C130.** What `scalar_fill` of a map does, exactly, for every buffer, every closure and all
sizes of vectors, over slices, strided iterators and everything else which delivers the elements
of a list. `k` is the number of vectors which `next` delivers (for strided iterators
there may be another full vector, which `end` delivers), and `n` the number of empty lanes computed
for the last result.

* If the buffer does not hold the results of these vectors, the first one which does not fit is
  written out of bounds (a panic in debug builds).
* Otherwise, all calls are made. If the last result has more lanes than are computed to be empty, and
  the buffer has no room for the rest, this is out of bounds as well, but a panic if `k` is zero.
* If more lanes are computed to be empty than there are, results are overwritten. -/
theorem C08_fill_driver (h : Driver c S l d more) (fuel : Nat) (st : σ)
    (f : FnMut σ (Vector α w) (Vector β w')) (buf : List β)
    (hw : 0 < w) (hw' : 0 < w') (hs : 0 < Packable.size β) (k n : Nat)
    (hk : ∀ i, i < k → more (i * w)) (hk' : ¬ more (k * w))
    (hn : n = (w - l.length % w) % w * Packable.size α / Packable.size β)
    (hlen' : buf.length + (k + 2) * w' + w * Packable.size α < c.usize) (hfuel : k < fuel) :
    scalarFill c fuel (simdMap (S 0) st f) buf =
      if buf.length < k * w' then
        callAll f st ((calls w d l).take (buf.length / w' + 1)) >>= fun _ => badAccess c
      else callAll f st (calls w d l) >>= fun q =>
        if w' < n then
          if k = 0 then badAccess c
          else if k * w' < n then panic
          else ok (⟨S l.length, q.2, f⟩, splice buf 0 (clobber n q.1))
        else if k * w < l.length ∧ buf.length < k * w' + (w' - n) then
          if k = 0 then panic else badAccess c
        else ok (⟨S l.length, q.2, f⟩, splice buf 0 (unpad n q.1)) := by
  obtain ⟨hc, he⟩ := h.emits_exact hw k hk hk'
  have h1 := (Driver.count_cases hw hc).1
  have hl : ((fullWindows w l).take k).length = k := by
    rw [List.length_take, fullWindows_length]; omega
  have hle : ∀ p m, tailFrom d l k = some (p, m) → m * Packable.size α ≤ w * Packable.size α := by
    intro p m e
    exact Nat.mul_le_mul_right _ (tailFrom_some e)
  have hm := simdMap_emits f he hs (fun p m e => by have := hle p m e; omega) st
  have hp := padOf_tailFrom hw d l hc
  have ht := withTail_tailFrom hw d l hc
  have hsome := tailFrom_isSome d l k
  let t : Option (Vector α w × Nat) :=
    (tailFrom d l k).map fun q => (q.1, q.2 * Packable.size α / Packable.size β)
  have hpt : zpadOf t = n := by
    rw [hn, ← hp]
    simp only [t, zpadOf, padOf]
    cases tailFrom d l k <;> simp
  have htt : zwithTail ((fullWindows w l).take k) t = calls w d l := by
    rw [← ht, zwithTail, withTail]
    congr 1
    simp only [t]
    cases tailFrom d l k <;> rfl
  have hst : t.isSome = true ↔ k * w < l.length := by
    rw [← hsome]
    simp [t]
  have hnle : n ≤ w * Packable.size α := by
    rw [hn]
    refine Nat.le_trans (Nat.div_le_self _ _) (Nat.mul_le_mul_right _ ?_)
    exact Nat.le_of_lt (Nat.mod_lt _ hw)
  have := fill_outcome f st ((fullWindows w l).take k) t
    (fun s => (⟨S l.length, s, f⟩ : SIMDMap I σ α w β w')) (m := simdMap (S 0) st f) (by
      refine cast (congrArg _ ?_) hm
      congr 1
      funext st'
      simp only [t]
      rcases tailFrom d l k with _ | ⟨p, m⟩ <;> rfl)
    fuel buf (by omega) hw' (by rw [hl, hpt]; omega)
  rw [hl, hpt, htt] at this
  refine this.trans ?_
  by_cases hb : buf.length < k * w'
  · rw [if_pos hb, if_pos hb, ← htt, zwithTail,
      List.take_append_of_le_length (l₂ := List.map _ _)]
    rw [hl]
    exact (Nat.div_lt_iff_lt_mul hw').mpr hb
  · rw [if_neg hb, if_neg hb]
    congr 1
    funext q
    simp only [hst]

/-- **C08, C130**, strided iterators: `k` and `n` computed. -/
theorem C08_fill_stride (c : Cfg) (fuel : Nat) (data : List α) {s i : Nat} (hi : i < s)
    (d : Vector α w) (st : σ) (f : FnMut σ (Vector α w) (Vector β w')) (buf : List β)
    (hw : 0 < w) (hw' : 0 < w') (hs : 0 < Packable.size β) (k n : Nat)
    (hk : k = (data.length - 1 - i) / s / w)
    (hn : n = (w - data.length / s % w) % w * Packable.size α / Packable.size β)
    (hu : data.length + s * (w + 1) < c.usize)
    (hlen' : buf.length + (k + 2) * w' + w * Packable.size α < c.usize) (hfuel : k < fuel) :
    scalarFill c fuel (simdMap (strideAt (⟨data⟩ : Slice α w) s i d) st f) buf =
      if buf.length < k * w' then
        callAll f st ((calls w d (strided s i data hi)).take (buf.length / w' + 1)) >>= fun _ =>
          badAccess c
      else callAll f st (calls w d (strided s i data hi)) >>= fun q =>
        if w' < n then
          if k = 0 then badAccess c
          else if k * w' < n then panic
          else ok (⟨⟨⟨data⟩, i + s * (data.length / s), i, s, d⟩, q.2, f⟩,
            splice buf 0 (clobber n q.1))
        else if k * w < data.length / s ∧ buf.length < k * w' + (w' - n) then
          if k = 0 then panic else badAccess c
        else ok (⟨⟨⟨data⟩, i + s * (data.length / s), i, s, d⟩, q.2, f⟩,
          splice buf 0 (unpad n q.1)) := by
  have hd := stride_driver (represents_slice (w := w) c data) hi d hw hu
  obtain ⟨h1, h2⟩ := stride_visits (len := data.length) hi hw
  subst hk
  have := C08_fill_driver hd fuel st f buf hw hw' hs _ n h1 h2 (by rw [hn, strided_length]) hlen' hfuel
  rw [strided_length] at this
  simpa [strideAt] using this

/-- **C08**: with a closure which always returns, `scalar_fill` of a map has undefined behaviour
exactly in release builds, if the buffer does not hold the results of the vectors from `next`; or
there are some, and no room for the lanes of the last result which are not computed to be empty; or
there are none, and more lanes are computed to be empty than there are. -/
theorem C08_ub_driver (h : Driver c S l d more) (fuel : Nat) (G : Vector α w → Vector β w')
    (buf : List β) (hw : 0 < w) (hw' : 0 < w') (hs : 0 < Packable.size β) (k n : Nat)
    (hk : ∀ i, i < k → more (i * w)) (hk' : ¬ more (k * w))
    (hn : n = (w - l.length % w) % w * Packable.size α / Packable.size β)
    (hlen' : buf.length + (k + 2) * w' + w * Packable.size α < c.usize) (hfuel : k < fuel) :
    scalarFill c fuel (simdMap (S 0) () (pureFn G)) buf = ub ↔
      c.debug = false ∧ (buf.length < k * w' ∨
        0 < k ∧ k * w < l.length ∧ n ≤ w' ∧ buf.length < k * w' + (w' - n) ∨
        k = 0 ∧ w' < n) := by
  have hbad : ∀ {A : Type}, (badAccess c : Res A) = ub ↔ c.debug = false := by
    intro A
    unfold badAccess
    cases c.debug <;> simp
  rw [C08_fill_driver h fuel () (pureFn G) buf hw hw' hs k n hk hk' hn hlen' hfuel]
  simp only [callAll_pure, ok_bind]
  by_cases h1 : buf.length < k * w'
  · simp only [h1, if_true, hbad, true_or, and_true]
  · simp only [h1, if_false, false_or]
    by_cases h2 : w' < n
    · have h3 : ¬ n ≤ w' := by omega
      simp only [h2, if_true, h3, false_and, and_false, false_or, and_true]
      by_cases h4 : k = 0
      · simp only [h4, if_true, hbad, and_true]
      · simp only [h4, if_false, and_false, iff_false]
        split <;> simp
    · have h3 : n ≤ w' := by omega
      simp only [h2, if_false, h3, true_and, and_false, or_false]
      by_cases h4 : k * w < l.length ∧ buf.length < k * w' + (w' - n)
      · by_cases h5 : k = 0
        · rw [if_pos h4, if_pos h5]
          simp [h5]
        · have h6 : 0 < k := by omega
          rw [if_pos h4, if_neg h5, hbad]
          simp only [h6, h4.1, h4.2, and_self, and_true]
      · rw [if_neg h4]
        simp only [h4, and_false, reduceCtorEq]

end

section
variable {I R α γ δ : Type} {w : Nat} [SIMDSized I] [SIMDIterator I α w] [Packable α]
  [ZipRest R γ] [LawfulRest R γ δ w]
  {c : Cfg} {S : Nat → I} {r : R} {rows : List (α × δ)} {dv : Vector (α × δ) w} {more : Nat → Prop}

theorem zip_emits_exact (hd : Driver c S (rows.map Prod.fst) (dv.map Prod.fst) more) (hw : 0 < w)
    (hr : LawfulRest.Rep c r (rows.map Prod.snd) (dv.map Prod.snd))
    (hu : rows.length + w < c.usize) (k : Nat)
    (hk : ∀ i, i < k → more (i * w)) (hk' : ¬ more (k * w)) :
    Driver.count w rows k ∧
      ZEmits c (⟨S 0, r⟩ : Zip I R) (((fullWindows w rows).take k).map (packRow R))
        (ok ((tailFrom dv rows k).map fun q => (packRow R q.1, q.2), ⟨S rows.length, r⟩)) := by
  obtain ⟨n, hc, he⟩ := zip_emits hd hw hr hu
  obtain ⟨n', hc', he'⟩ := hd.emits hw
  obtain ⟨hck, hek⟩ := hd.emits_exact hw k hk hk'
  have hr1 := zip_runs_exact hd hw hr (by omega) k 0 (Nat.zero_le _) (by simpa using hk) (by simpa using hk')
  rw [List.drop_zero] at hr1
  have hck' : Driver.count w rows k := by
    simpa only [Driver.count, List.length_map] using hck
  suffices e : n = k by subst e; exact ⟨hc, he⟩
  obtain ⟨r, h1, -⟩ := he
  have e := congrArg List.length (ZRuns.unique h1 hr1).1
  have h2 := (Driver.count_cases hw hc).1
  have h3 := (Driver.count_cases hw hck').1
  rw [List.length_map, List.length_map, List.length_take, List.length_take, fullWindows_length] at e
  omega

/-- **C08, C130**, zips of any arity, whatever they start with: what `scalar_fill` of a mapped zip
does, exactly, for every buffer, every closure and all sizes of vectors. -/
theorem C08_fill_zip {β σ : Type} [Packable β] {w' : Nat}
    (hd : Driver c S (rows.map Prod.fst) (dv.map Prod.fst) more) (hw : 0 < w)
    (hr : LawfulRest.Rep c r (rows.map Prod.snd) (dv.map Prod.snd))
    (hu : rows.length + w < c.usize) (fuel : Nat) (st : σ)
    (f : FnMut σ (Vector α w × γ) (Vector β w')) (buf : List β)
    (hw' : 0 < w') (hs : 0 < Packable.size β) (k n : Nat)
    (hk : ∀ i, i < k → more (i * w)) (hk' : ¬ more (k * w))
    (hn : n = (w - rows.length % w) % w * Packable.size α / Packable.size β)
    (hlen' : buf.length + (k + 2) * w' + w * Packable.size α < c.usize) (hfuel : k < fuel) :
    (do
      let z ← zip c (S 0) r
      scalarFill c fuel (zsimdMap z st f) buf) =
      if buf.length < k * w' then
        callAll f st (((calls w dv rows).map (packRow R)).take (buf.length / w' + 1)) >>= fun _ =>
          badAccess c
      else callAll f st ((calls w dv rows).map (packRow R)) >>= fun q =>
        if w' < n then
          if k = 0 then badAccess c
          else if k * w' < n then panic
          else ok (⟨⟨S rows.length, r⟩, q.2, f⟩, splice buf 0 (clobber n q.1))
        else if k * w < rows.length ∧ buf.length < k * w' + (w' - n) then
          if k = 0 then panic else badAccess c
        else ok (⟨⟨S rows.length, r⟩, q.2, f⟩, splice buf 0 (unpad n q.1)) := by
  rw [zip_ok hd hw hr]
  simp only [ok_bind]
  obtain ⟨hc, he⟩ := zip_emits_exact hd hw hr hu k hk hk'
  have h1 := (Driver.count_cases hw hc).1
  have hl : (((fullWindows w rows).take k).map (packRow R)).length = k := by
    rw [List.length_map, List.length_take, fullWindows_length]; omega
  have hsz : SIMDZippedIterator.size (⟨S rows.length, r⟩ : Zip I R) = Packable.size α := rfl
  have hm := zipMap_emits f he hs (by
    intro p m e
    rcases ht : tailFrom dv rows k with _ | ⟨q, m'⟩
    · rw [ht] at e; cases e
    · rw [ht] at e
      simp only [Option.map_some, Option.some.injEq, Prod.mk.injEq] at e
      have h5 := tailFrom_some ht
      have h6 : m * Packable.size α ≤ w * Packable.size α := Nat.mul_le_mul_right _ (by omega)
      rw [hsz]
      omega) st
  have hp := padOf_tailFrom hw dv rows hc
  have ht := zwithTail_tailFrom (R := R) (dv := dv) hw hc
  have hsome := tailFrom_isSome dv rows k
  let t : Option ((Vector α w × γ) × Nat) :=
    (tailFrom dv rows k).map fun q => (packRow R q.1, q.2 * Packable.size α / Packable.size β)
  have hpt : zpadOf t = n := by
    rw [hn, ← hp]
    simp only [t, zpadOf, padOf]
    cases tailFrom dv rows k <;> simp
  have htt : zwithTail (((fullWindows w rows).take k).map (packRow R)) t =
      (calls w dv rows).map (packRow R) := by
    rw [← ht, zwithTail, zwithTail]
    congr 1
    simp only [t]
    cases tailFrom dv rows k <;> rfl
  have hst : t.isSome = true ↔ k * w < rows.length := by
    rw [← hsome]
    simp [t]
  have hnle : n ≤ w * Packable.size α := by
    rw [hn]
    refine Nat.le_trans (Nat.div_le_self _ _) (Nat.mul_le_mul_right _ ?_)
    exact Nat.le_of_lt (Nat.mod_lt _ hw)
  have := fill_outcome f st (((fullWindows w rows).take k).map (packRow R)) t
    (fun s => (⟨⟨S rows.length, r⟩, s, f⟩ : SIMDZipMap (Zip I R) σ (Vector α w × γ) β w'))
    (m := zsimdMap ⟨S 0, r⟩ st f) (by
      refine cast (congrArg _ ?_) hm
      congr 1
      funext st'
      simp only [t, hsz]
      rcases tailFrom dv rows k with _ | ⟨p, m⟩ <;> rfl)
    fuel buf (by omega) hw' (by rw [hl, hpt]; omega)
  rw [hl, hpt, htt] at this
  refine this.trans ?_
  by_cases hb : buf.length < k * w'
  · rw [if_pos hb, if_pos hb, ← htt, zwithTail,
      List.take_append_of_le_length (l₂ := List.map _ _)]
    rw [hl]
    exact (Nat.div_lt_iff_lt_mul hw').mpr hb
  · rw [if_neg hb, if_neg hb]
    congr 1
    funext q
    simp only [hst]

end

/-- Every other byte of eight, in vectors of four, into a buffer of three: `end` delivers the only
vector, and the build panics also without debug assertions. -/
example : (scalarFill release64 9 (simdMap (strideAt (⟨[1#8, 2, 3, 4, 5, 6, 7, 8]⟩ : Slice _ 4) 2 0
      (Vector.replicate 4 0#8)) () (pureFn (Vector.map (· + 1)))) [0, 0, 0]).bind (fun r => ok r.2) =
    panic := by decide +kernel

/-- The elements with odd indices of nine: the same; those with even indices are out of bounds. -/
example : (scalarFill release64 9 (simdMap (strideAt (⟨[1#8, 2, 3, 4, 5, 6, 7, 8, 9]⟩ : Slice _ 4) 2 1
      (Vector.replicate 4 0#8)) () (pureFn (Vector.map (· + 1)))) [0, 0, 0]).bind (fun r => ok r.2) =
    panic ∧
    (scalarFill release64 9 (simdMap (strideAt (⟨[1#8, 2, 3, 4, 5, 6, 7, 8, 9]⟩ : Slice _ 4) 2 0
      (Vector.replicate 4 0#8)) () (pureFn (Vector.map (· + 1)))) [0, 0, 0]).bind (fun r => ok r.2) =
    ub := by decide +kernel

/-- Two slices of six bytes, mapped to their sums in vectors of four, into a buffer of five: the
last two sums do not fit. -/
example : (do
    let z ← zip release64 (simdIter (w := 4) [1#8, 2, 3, 4, 5, 6] (Vector.replicate 4 0))
      (simdIter (w := 4) [1#8, 2, 3, 4, 5, 6] (Vector.replicate 4 0), ())
    let (_, out) ← scalarFill release64 9 (zsimdMap z () (pureFn fun
      (v : Vector (BitVec 8) 4 × Vector (BitVec 8) 4 × Unit) => Vector.zipWith (· + ·) v.1 v.2.1))
      [0#8, 0, 0, 0, 0]
    ok out) = ub := by decide +kernel

/-! ### `scalar_collect` -/

/-- **C130**: with a closure which always returns, `scalar_collect` of a map has undefined behaviour
exactly in release builds, if there is no full vector and more lanes are computed to be empty
than the result has. -/
theorem C130_ub_iff {I α β : Type} {w w' : Nat} [SIMDSized I] [SIMDIterator I α w] [Packable α]
    [Packable β] {c : Cfg} {S : Nat → I} {l : List α} {d : Vector α w} {more : Nat → Prop}
    (h : Driver c S l d more) (fuel : Nat) (G : Vector α w → Vector β w') (hw : 0 < w) (hw' : 0 < w')
    (hs : 0 < Packable.size β) (n : Nat)
    (hn : n = (w - l.length % w) % w * Packable.size α / Packable.size β)
    (hlen' : (l.length / w + 1) * w' + w * Packable.size α < c.usize) (hfuel : l.length / w < fuel) :
    scalarCollect c fuel (simdMap (S 0) () (pureFn G)) = ub ↔
      c.debug = false ∧ l.length < w ∧ w' < n := by
  by_cases hover : w' < n
  · rw [C130_collect_over h fuel () (pureFn G) hw hw' hs n hn hover hlen' hfuel]
    simp only [callAll_pure, ok_bind, badAccess]
    by_cases h1 : l.length < w
    · cases hd : c.debug <;> simp [h1, hover]
    · by_cases h2 : l.length / w * w' < n <;> simp [h1, h2]
  · rw [C130_collect h fuel () (pureFn G) hw hw' hs (by omega) (by omega) (by omega) hfuel]
    simp [callAll_pure, hover]

/-- **C130**, mapped zips: with a closure which always returns, `scalar_collect` has undefined
behaviour in the same cases, and panics exactly if this is a debug build, or if there are full vectors
with fewer lanes than are computed to be empty. -/
theorem C130_zip_outcome {I R α β γ δ : Type} {w w' : Nat} [SIMDSized I] [SIMDIterator I α w] [Packable α]
    [Packable β] [ZipRest R γ] [LawfulRest R γ δ w]
    {c : Cfg} {S : Nat → I} {r : R} {rows : List (α × δ)} {dv : Vector (α × δ) w} {more : Nat → Prop}
    (hd : Driver c S (rows.map Prod.fst) (dv.map Prod.fst) more) (hw : 0 < w)
    (hr : LawfulRest.Rep c r (rows.map Prod.snd) (dv.map Prod.snd))
    (hu : rows.length + w < c.usize) (fuel : Nat) (G : Vector α w × γ → Vector β w')
    (hw' : 0 < w') (hs : 0 < Packable.size β)
    (n : Nat) (hn : n = (w - rows.length % w) % w * Packable.size α / Packable.size β)
    (hlen' : (rows.length / w + 1) * w' + w * Packable.size α < c.usize)
    (hfuel : rows.length / w < fuel) :
    (do
      let z ← zip c (S 0) r
      let _ ← scalarCollect c fuel (zsimdMap z () (pureFn G))
      ok ()) =
      if w' < n ∧ rows.length < w then badAccess c
      else if w' < n ∧ rows.length / w * w' < n then panic
      else ok () := by
  have e : (do
      let z ← zip c (S 0) r
      let _ ← scalarCollect c fuel (zsimdMap z () (pureFn G))
      ok ()) = (do
      let z ← zip c (S 0) r
      scalarCollect c fuel (zsimdMap z () (pureFn G))) >>= fun _ => ok () := by
    rw [bind_assoc]
  rw [e]
  by_cases hover : w' < n
  · rw [C130_zip_collect_over hd hw hr hu fuel () (pureFn G) hw' hs n hn hover hlen' hfuel]
    simp only [callAll_pure, ok_bind, hover, true_and]
    by_cases h1 : rows.length < w
    · simp only [h1, if_true, badAccess]
      cases c.debug <;> rfl
    · by_cases h2 : rows.length / w * w' < n
      · simp only [h1, h2, if_true, if_false]; rfl
      · simp only [h1, h2, if_false, ok_bind]
  · rw [C130_zip_collect hd hw hr hu fuel () (pureFn G) hw' hs (by omega) (by omega) (by omega) hfuel]
    simp only [callAll_pure, ok_bind, hover, false_and, if_false]

end Faster
