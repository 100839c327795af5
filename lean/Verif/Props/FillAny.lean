import Verif.Props.SizeChange
/-
C08, C130: what `scalar_fill` of a map of a slice does, for every buffer, every closure and all sizes
of vectors.
-/
namespace Faster
open Res SIMDSized SIMDIterable SIMDIterator

/-! ### Calls up to a panic -/

section
variable {σ δ ε : Type}

theorem callAll_take_ok (f : FnMut σ δ ε) (st : σ) (vs : List δ) (m : Nat)
    (h : m ≤ (mapRun f st vs).1.length) : ∃ q, callAll f st (vs.take m) = ok q := by
  induction vs generalizing st m with
  | nil => exact ⟨_, by simp [callAll]; rfl⟩
  | cons v vs ih =>
    cases m with
    | zero => exact ⟨_, by simp [callAll]; rfl⟩
    | succ m =>
      simp only [mapRun] at h
      simp only [List.take_succ_cons, callAll]
      cases hf : f st v with
      | ok p =>
        simp only [hf, List.length_cons] at h
        obtain ⟨q, hq⟩ := ih p.2 m (by omega)
        exact ⟨_, by simp only [ok_bind, hq]; rfl⟩
      | _ => simp [hf] at h

theorem callAll_take_fail {A : Type} (f : FnMut σ δ ε) (st : σ) (vs : List δ) (m : Nat)
    (h : (mapRun f st vs).1.length < m) (hm : (mapRun f st vs).1.length < vs.length)
    (K : List ε × σ → Res A) (K' : σ → Res A) :
    (callAll f st (vs.take m) >>= K) = ((mapRun f st vs).2 >>= K') := by
  induction vs generalizing st m K K' with
  | nil => simp at hm
  | cons v vs ih =>
    obtain ⟨m, rfl⟩ : ∃ k, m = k + 1 := ⟨m - 1, by omega⟩
    simp only [mapRun] at h hm ⊢
    simp only [List.take_succ_cons, callAll]
    cases hf : f st v with
    | ok p =>
      simp only [hf, List.length_cons] at h hm ⊢
      simp only [ok_bind, bind_assoc]
      exact ih p.2 m (by omega) (by omega) _ _
    | _ => rfl

end

section
variable {I β σ δ : Type} {w : Nat} [SIMDSized I] [SIMDIterator I β w] [Packable β]

/-- A buffer which does not hold the full vectors: the first store which does not fit fails. -/
theorem fill_short_full {c : Cfg} (f : FnMut σ δ (Vector β w)) (st : σ) (vs : List δ)
    {T : σ → Res (Option (Vector β w × Nat) × I)} {m : I}
    (h : Emits c m (mapRun f st vs).1 ((mapRun f st vs).2 >>= T))
    (fuel : Nat) (buf : List β) (hf : vs.length < fuel) (hw : 0 < w)
    (hb : buf.length < vs.length * w) (hu : buf.length + w < c.usize) :
    scalarFill c fuel m buf =
      callAll f st (vs.take (buf.length / w + 1)) >>= fun _ => badAccess c := by
  have hle := mapRun_length_le f st vs
  by_cases hs : (mapRun f st vs).1.length * w ≤ buf.length
  · have hlt : (mapRun f st vs).1.length < vs.length := Nat.lt_of_mul_lt_mul_right (Nat.lt_of_le_of_lt hs hb)
    have hd : (mapRun f st vs).1.length ≤ buf.length / w := (Nat.le_div_iff_mul_le hw).mpr hs
    have hnot : ∀ s, (mapRun f st vs).2 ≠ ok s := by
      intro s e
      have := mapRun_length f st s vs e
      omega
    rw [scalarFill_emits h fuel buf (by omega) hw hs (by omega) (by
      intro p n it' e
      cases hr : (mapRun f st vs).2 with
      | ok s => exact absurd hr (hnot s)
      | _ => rw [hr] at e; cases e)]
    rw [callAll_take_fail f st vs (buf.length / w + 1) (by omega) hlt _ (fun _ => badAccess c)]
    cases hr : (mapRun f st vs).2 with
    | ok s => exact absurd hr (hnot s)
    | _ => rfl
  · have hd : buf.length / w + 1 ≤ (mapRun f st vs).1.length := by
      have := (Nat.div_lt_iff_lt_mul hw).mpr (Nat.lt_of_not_le hs)
      omega
    obtain ⟨q, hq⟩ := callAll_take_ok f st vs _ hd
    rw [hq]
    obtain ⟨r, h1, -⟩ := h
    simp only [scalarFill]
    rw [fillLoop_runs_short id h1 fuel buf 0 _ (by omega) (by omega) (by omega) hu]
    simp

/-- A buffer which holds the full vectors, but not all lanes of the last one. -/
theorem fill_short_tail {c : Cfg} (f : FnMut σ δ (Vector β w)) (st : σ) (vs : List δ) (p : δ) (n : Nat)
    (mk : σ → I) {m : I}
    (h : Emits c m (mapRun f st vs).1 ((mapRun f st vs).2 >>= fun st' =>
      f st' p >>= fun q => ok (some (q.1, n), mk q.2)))
    (fuel : Nat) (buf : List β) (hf : vs.length < fuel) (hw : 0 < w) (hn : n ≤ w)
    (hb : vs.length * w ≤ buf.length) (hb2 : buf.length < vs.length * w + (w - n))
    (hu : vs.length * w + 2 * w < c.usize) :
    scalarFill c fuel m buf =
      callAll f st (vs ++ [p]) >>= fun _ => if vs.length = 0 then panic else badAccess c := by
  have hle := mapRun_length_le f st vs
  have hmul : (mapRun f st vs).1.length * w ≤ vs.length * w := Nat.mul_le_mul_right w hle
  rw [callAll_append, callAll_mapRun f st vs]
  cases hr : (mapRun f st vs).2 with
  | ok st' =>
    have hl := mapRun_length f st st' vs hr
    simp only [hr, ok_bind] at h
    simp only [ok_bind, callAll]
    cases hp : f st' p with
    | ok q =>
      simp only [hp, ok_bind] at h
      simp only [ok_bind]
      rw [scalarFill_short h fuel buf (by omega) hw (by rintro p' n' e; cases e; exact hn)
        (by rw [hl]; exact hb2) (by rw [hl]; omega) (by omega)]
      simp only [← List.length_eq_zero_iff, hl]
    | _ =>
      rw [hp] at h
      rw [scalarFill_emits h fuel buf (by omega) hw (by omega) (by omega) (by intros; simp at *)]
      rfl
  | _ =>
    rw [hr] at h
    rw [scalarFill_emits h fuel buf (by omega) hw (by omega) (by omega) (by intros; simp at *)]
    rfl

end

/-- **C08, C130.** What `scalar_fill` of a map of a slice does, exactly, for every buffer, every
closure and all sizes of vectors. `k` is the number of full vectors and `n` the number of empty lanes
computed for the last result.

* If the buffer does not hold the results of the full vectors, the first one which does not fit is
  written out of bounds (a panic in debug builds).
* Otherwise, all calls are made. If the last result has more lanes than are computed to be empty, and
  the buffer has no room for the rest, this is out of bounds as well, but a panic if there was no
  full vector.
* If more lanes are computed to be empty than there are, see `C130_fill_over`. -/
theorem C08_fill_outcome {α β σ : Type} [Packable α] [Packable β] {w w' : Nat} (c : Cfg) (fuel : Nat)
    (data : List α) (d : Vector α w) (st : σ) (f : FnMut σ (Vector α w) (Vector β w')) (buf : List β)
    (hw : 0 < w) (hw' : 0 < w') (hs : 0 < Packable.size β)
    (k n : Nat) (hk : k = data.length / w)
    (hn : n = (w - data.length % w) % w * Packable.size α / Packable.size β)
    (hlen : data.length + w < c.usize)
    (hlen' : buf.length + (k + 2) * w' + w * Packable.size α < c.usize) (hfuel : k < fuel) :
    scalarFill c fuel (simdMap (simdIter data d) st f) buf =
      if buf.length < k * w' then
        callAll f st ((calls w d data).take (buf.length / w' + 1)) >>= fun _ => badAccess c
      else callAll f st (calls w d data) >>= fun q =>
        if w' < n then
          if k = 0 then badAccess c
          else if k * w' < n then panic
          else ok (⟨⟨data.length, ⟨data⟩, d⟩, q.2, f⟩, splice buf 0 (clobber n q.1))
        else if data.length % w ≠ 0 ∧ buf.length < k * w' + (w' - n) then
          if k = 0 then panic else badAccess c
        else ok (⟨⟨data.length, ⟨data⟩, d⟩, q.2, f⟩, splice buf 0 (unpad n q.1)) := by
  subst hk
  have hm := Nat.mod_lt data.length hw
  have hdr := simdIter_driver (represents_slice (w := w) c data) d hw hlen
  have he := simdIter_emits (represents_slice (w := w) c data) d hw hlen
  have hl := fullWindows_length w data
  rw [Nat.add_mul] at hlen'
  have hk0 : data.length / w = 0 ↔ data.length < w := by rw [Nat.div_eq_zero_iff]; omega
  have hmul : (w - data.length % w) * Packable.size α ≤ w * Packable.size α :=
    Nat.mul_le_mul_right _ (by omega)
  have hm2 := simdMap_emits f he hs (by
    intro p m e
    simp only [tailOf] at e
    split at e
    · cases e
    · cases e; omega) st
  by_cases hb : buf.length < data.length / w * w'
  · rw [if_pos hb]
    have := fill_short_full f st (fullWindows w data) hm2 fuel buf (by omega) hw' (by rw [hl]; exact hb)
      (by omega)
    have hd : buf.length / w' < data.length / w := (Nat.div_lt_iff_lt_mul hw').mpr hb
    refine this.trans ?_
    unfold calls
    rw [List.take_append_of_le_length (by omega)]
  · rw [if_neg hb]
    by_cases hover : w' < n
    · have := C130_fill_over hdr fuel st f buf hw hw' hs n hn hover (by omega) (by omega) hfuel
      refine this.trans ?_
      congr 1
      funext q
      simp only [if_pos hover, hk0]
    · by_cases hshort : data.length % w ≠ 0 ∧ buf.length < data.length / w * w' + (w' - n)
      · obtain ⟨hr, hb2⟩ := hshort
        rw [Nat.mod_eq_of_lt (by omega)] at hn
        simp only [tailOf, if_neg hr, mapTail, ← hn] at hm2
        have := fill_short_tail f st (fullWindows w data) _ n
          (fun s => (⟨⟨data.length, ⟨data⟩, d⟩, s, f⟩ : SIMDMap (SIMDIter (Slice α w) α w) σ α w β w'))
          hm2 fuel buf (by omega) hw' (by omega) (by rw [hl]; omega) (by rw [hl]; exact hb2)
          (by rw [hl]; omega)
        refine this.trans ?_
        rw [calls_rest d data hr, hl]
        congr 1
        funext q
        rw [if_neg hover]
        have hsh : data.length % w ≠ 0 ∧ buf.length < data.length / w * w' + (w' - n) := ⟨hr, hb2⟩
        rw [if_pos hsh]
      · have := C130_fill hdr fuel st f buf hw hw' hs (by omega) (by
          by_cases hr : data.length % w = 0
          · have e : (data.length + (w - 1)) / w = data.length / w := by
              have h1 := Nat.div_add_mod data.length w
              rw [hr, Nat.add_zero, Nat.mul_comm] at h1
              rw [Nat.div_eq_of_lt_le] <;> (try simp only [Nat.succ_mul]) <;> omega
            rw [e]; omega
          · have e : (data.length + (w - 1)) / w = data.length / w + 1 := by
              have h1 := Nat.div_add_mod data.length w
              rw [Nat.mul_comm] at h1
              rw [Nat.div_eq_of_lt_le] <;> (try simp only [Nat.succ_mul]) <;> omega
            rw [e, Nat.succ_mul, ← hn]
            omega) (by rw [Nat.succ_mul]; omega) (by omega) hfuel
        refine this.trans ?_
        congr 1
        funext q
        rw [if_neg hover, if_neg hshort, ← hn]


/-- **C08**: with a closure which always returns, `scalar_fill` of a map of a slice has undefined
behaviour exactly in release builds, if the buffer does not hold the full vectors; or there is a full
vector, and no room for the lanes of the last result which are not computed to be empty; or there is
none, and more lanes are computed to be empty than there are. -/
theorem C08_ub_iff {α β : Type} [Packable α] [Packable β] {w w' : Nat} (c : Cfg) (fuel : Nat)
    (data : List α) (d : Vector α w) (G : Vector α w → Vector β w') (buf : List β)
    (hw : 0 < w) (hw' : 0 < w') (hs : 0 < Packable.size β)
    (k n : Nat) (hk : k = data.length / w)
    (hn : n = (w - data.length % w) % w * Packable.size α / Packable.size β)
    (hlen : data.length + w < c.usize)
    (hlen' : buf.length + (k + 2) * w' + w * Packable.size α < c.usize) (hfuel : k < fuel) :
    scalarFill c fuel (simdMap (simdIter data d) () (pureFn G)) buf = ub ↔
      c.debug = false ∧ (buf.length < k * w' ∨
        0 < k ∧ data.length % w ≠ 0 ∧ n ≤ w' ∧ buf.length < k * w' + (w' - n) ∨
        k = 0 ∧ w' < n) := by
  have hbad : ∀ {A : Type}, (badAccess c : Res A) = ub ↔ c.debug = false := by
    intro A
    unfold badAccess
    cases c.debug <;> simp
  rw [C08_fill_outcome c fuel data d () (pureFn G) buf hw hw' hs k n hk hn hlen hlen' hfuel]
  simp only [callAll_pure, ok_bind]
  by_cases h1 : buf.length < k * w'
  · simp only [h1, if_true, hbad, true_or, and_true]
  · simp only [h1, if_false, false_or]
    by_cases h2 : w' < n
    · have h3 : ¬ n ≤ w' := by omega
      simp only [h2, if_true, h3, false_and, and_false, false_or, and_true]
      by_cases h4 : k = 0
      · simp only [h4, if_true, hbad, and_true]
      · simp only [h4, if_false, and_false, iff_false]
        split <;> simp
    · have h3 : n ≤ w' := by omega
      simp only [h2, if_false, h3, true_and, and_false, or_false]
      by_cases h4 : data.length % w ≠ 0 ∧ buf.length < k * w' + (w' - n)
      · by_cases h5 : k = 0
        · rw [if_pos h4, if_pos h5]
          simp [h5]
        · have h6 : 0 < k := by omega
          rw [if_pos h4, if_neg h5, hbad]
          simp only [h6, h4.1, h4.2, ne_eq, not_false_eq_true, and_self, and_true]
      · rw [if_neg h4]
        simp only [h4, and_false, reduceCtorEq]

/-- Ten bytes into a buffer of five: the closure is called twice, the second result does not fit. -/
example : scalarFill release64 9 (simdMap (simdIter (w := 4) [1#8, 2, 3, 4, 5, 6, 7, 8, 9, 10]
      (Vector.replicate 4 0)) () (pureFn (Vector.map (· + 1)))) [0, 0, 0, 0, 0] = ub :=
  (C08_ub_iff release64 9 _ _ _ _ (by decide) (by decide) (by decide) 2 2 (by decide) (by decide)
    (by decide) (by decide) (by decide)).mpr (by decide)

/-- If the closure panics at the second call, nothing is written out of bounds. -/
example : (scalarFill release64 9 (simdMap (simdIter (w := 4) [1#8, 2, 3, 4, 5, 6, 7, 8, 9, 10]
      (Vector.replicate 4 0)) (0 : Nat) (fun i v => if i = 1 then panic else ok (v, i + 1)))
      [0, 0, 0, 0, 0]).bind (fun r => ok r.2) = panic := by decide +kernel

end Faster
