import Verif.Props.Programs
import Verif.Props.Zip
/-
C86: the two ways of benches/destride.rs to separate interleaved data.
-/
namespace Faster
open Res SIMDSized SIMDIterable SIMDIterator

/-- Specification: `xs` has one entry per `s * w` elements of `data`, with `s` vectors
each; lane `j` of vector `k` of entry `q` is element `k` of group `q * w + j`. -/
def Deinterleaved {α : Type} {w : Nat} (s : Nat) (data : List α) (xs : List (List (Vector α w))) :
    Prop :=
  xs.length = data.length / (s * w) ∧ (∀ x ∈ xs, x.length = s) ∧
  ∀ q k j (hq : q < xs.length) (hk : k < xs[q].length) (hj : j < w),
    data[(q * w + j) * s + k]? = some xs[q][k][j]

/-- The specification determines the list. -/
theorem C86_unique {α : Type} {w s : Nat} {data : List α} {xs ys : List (List (Vector α w))}
    (h : Deinterleaved s data xs) (h' : Deinterleaved s data ys) : xs = ys := by
  apply List.ext_getElem (h.1.trans h'.1.symm)
  intro q hq hq'
  have e1 := h.2.1 _ (List.getElem_mem hq)
  have e2 := h'.2.1 _ (List.getElem_mem hq')
  apply List.ext_getElem (e1.trans e2.symm)
  intro k hk hk'
  ext j hj
  have := (h.2.2 q k j hq hk hj).symm.trans (h'.2.2 q k j hq' hk' hj)
  simpa using this

theorem chunksOf_getElem? {β : Type} {n : Nat} (hn : 0 < n) (q : Nat) : ∀ l : List β,
    (chunksOf n l)[q]? = if q * n < l.length then some ((l.drop (q * n)).take n) else none := by
  induction q with
  | zero =>
    intro l
    rw [chunksOf]
    by_cases hl : l = []
    · subst hl; simp
    · have : 0 < l.length := List.length_pos_iff.mpr hl
      rw [dif_neg (not_or.mpr ⟨by omega, hl⟩)]
      simp [this]
  | succ q ih =>
    intro l
    rw [chunksOf]
    by_cases hl : l = []
    · subst hl; simp
    · rw [dif_neg (not_or.mpr ⟨by omega, hl⟩), List.getElem?_cons_succ, ih, List.length_drop,
        List.drop_drop, Nat.succ_mul, Nat.add_comm n]
      by_cases h : q * n + n < l.length
      · rw [if_pos h, if_pos (by omega)]
      · rw [if_neg h, if_neg (by omega)]

theorem chunksOf_length {β : Type} {n : Nat} (hn : 0 < n) (l : List β) (h : l.length % n = 0) :
    (chunksOf n l).length = l.length / n := by
  obtain ⟨m, hm⟩ : ∃ m, l.length = m * n := ⟨l.length / n, by
    have := Nat.div_add_mod l.length n
    rw [Nat.mul_comm] at this
    omega⟩
  have key : ∀ q, q < (chunksOf n l).length ↔ q < m := by
    intro q
    have := chunksOf_getElem? hn q l
    rw [hm] at this
    by_cases hq : q < m
    · have h2 : q * n < m * n := Nat.mul_lt_mul_of_pos_right hq hn
      rw [if_pos h2] at this
      have := (List.getElem?_eq_some_iff.mp this).1
      exact ⟨fun _ => hq, fun _ => this⟩
    · have h2 : m * n ≤ q * n := Nat.mul_le_mul_right _ (by omega)
      rw [if_neg (by omega)] at this
      have := List.getElem?_eq_none_iff.mp this
      constructor
      · intro; omega
      · intro; omega
  have e : l.length / n = m := by rw [hm, Nat.mul_div_cancel _ hn]
  rw [e]
  have h1 := key m
  have h2 := key (chunksOf n l).length
  omega

section
variable {T α γ : Type} {w : Nat} [SIMDSized T] [SIMDIterator T α w]

/-- The loop calls its body on the chunks of the vectors. -/
theorem forChunks_eq {c : Cfg} {it' : T} (hend : next c it' = ok (none, it'))
    (f : List (Vector α w) → Res γ) (amt : Nat) (ha0 : 0 < amt) (ha : amt ≤ 8) :
    ∀ (fuel : Nat) (it : T) (vs : List (Vector α w)) (s : Vector (Vector α w) 8),
    Runs c it vs (ok it') → vs.length < fuel →
    forChunks c f fuel ⟨it, amt, s⟩ = (chunksOf amt vs).mapM f := by
  intro fuel
  induction fuel with
  | zero => intro it vs s h hf; omega
  | succ fuel ih =>
    intro it vs s h hf
    obtain ⟨it1, s', e1, e2, e3⟩ := unrolled_next hend h amt s ha0 ha
    rw [chunksOf]
    by_cases hv : vs = []
    · subst hv
      rw [dif_pos (Or.inr rfl)]
      simp [forChunks, e1]
    · rw [dif_neg (not_or.mpr ⟨by omega, hv⟩)]
      have hlen : 0 < vs.length := List.length_pos_iff.mpr hv
      have e4 := ih it1 (vs.drop amt) s' e2 (by simp; omega)
      simp only [forChunks, e1, ok_bind, if_neg hv, e4, ScratchRef.read, e3, List.mapM_cons]
      rfl

theorem mapM_exists {β : Type} (f : β → Res γ) (R : β → γ → Prop) :
    ∀ (l : List β), (∀ x ∈ l, ∃ y, f x = ok y ∧ R x y) →
    ∃ ys : List γ, l.mapM f = ok ys ∧ ys.length = l.length ∧
      ∀ i (h : i < l.length) (h' : i < ys.length), R l[i] ys[i] := by
  intro l
  induction l with
  | nil => intro _; exact ⟨[], rfl, rfl, by simp⟩
  | cons x l ih =>
    intro h
    obtain ⟨y, e1, r1⟩ := h x (by simp)
    obtain ⟨ys, e2, hl, r2⟩ := ih fun z hz => h z (by simp [hz])
    refine ⟨y :: ys, ?_, by simp [hl], ?_⟩
    · simp only [List.mapM_cons, e1, e2, ok_bind]; rfl
    · intro i h1 h2
      cases i with
      | zero => exact r1
      | succ i => simpa using r2 i (by simpa using h1) (by simpa using h2)

theorem mapM_last_panic {β : Type} (f : β → Res γ) (l : List β) (x : β) (hx : f x = panic)
    (h : ∀ y ∈ l, ∃ z, f y = ok z) : (l ++ [x]).mapM f = panic := by
  induction l with
  | nil => simp [List.mapM_cons, hx]
  | cons y l ih =>
    obtain ⟨z, e⟩ := h y (by simp)
    rw [List.cons_append, List.mapM_cons, e, ih fun a ha => h a (by simp [ha])]
    rfl

/-- What a body has to do: on `s` vectors, return the `s` residue classes. -/
def SeparatesChunk (s : Nat) (f : List (Vector α w) → Res (List (Vector α w))) : Prop :=
  ∀ v : List (Vector α w), v.length = s → ∃ x, f v = ok x ∧ x.length = s ∧
    ∀ k (hk : k < x.length), IsResidue s k (lanes v) x[k].toList

theorem SeparatesChunk.ok {s : Nat} {f : List (Vector α w) → Res (List (Vector α w))}
    (h : SeparatesChunk s f) (v : List (Vector α w)) (hv : v.length = s) : ∃ x, f v = Res.ok x :=
  let ⟨x, e, _⟩ := h v hv
  ⟨x, e⟩

/-- Specification: `xs` has one entry per `s * w` elements of `data`, with `s` vectors each; lane
`j` of vector `k` of an entry is element `g k j` of its part of `data`. -/
def Gathered (s : Nat) (g : Nat → Nat → Nat) (data : List α) (xs : List (List (Vector α w))) :
    Prop :=
  xs.length = data.length / (s * w) ∧ (∀ x ∈ xs, x.length = s) ∧
  ∀ q k j (hq : q < xs.length) (hk : k < xs[q].length) (hj : j < w),
    data[q * (s * w) + g k j]? = some xs[q][k][j]

/-- What a body of such a loop has to do. -/
def GathersChunk (s : Nat) (g : Nat → Nat → Nat)
    (f : List (Vector α w) → Res (List (Vector α w))) : Prop :=
  ∀ v : List (Vector α w), v.length = s → ∃ x, f v = ok x ∧ x.length = s ∧
    ∀ k j (hk : k < x.length) (hj : j < w), g k j < s * w ∧ (lanes v)[g k j]? = some x[k][j]

/-- The loop over chunks, with a body which moves elements within its chunk. -/
theorem chunks_gather [Packable α] (c : Cfg) (fuel s : Nat) (data : List α)
    (d : Vector α w) {f : List (Vector α w) → Res (List (Vector α w))} {g : Nat → Nat → Nat}
    (hf : GathersChunk s g f)
    (hw : 0 < w) (hs0 : 0 < s) (hs : s ≤ 8) (hlen : data.length + w < c.usize)
    (hmul : data.length / w % s = 0) (hfuel : data.length / w < fuel) :
    ∃ xs, (do
      let u ← unroll (simdIter data d) s
      forChunks c f fuel u) = ok xs ∧ Gathered s g data xs := by
  have h := simdIter_runs (represents_slice (w := w) c data) d hw hlen 0 (by omega)
  simp only [List.drop_zero] at h
  have hdm := Nat.div_add_mod (data.length - 0) w
  have hml := Nat.mod_lt (data.length - 0) hw
  rw [Nat.mul_comm] at hdm
  have hend := simdIter_next_none (represents_slice (w := w) c data)
    (p := 0 + (data.length - 0) / w * w) (d := d) (by omega) (by omega)
  have hloop := forChunks_eq hend f s hs0 hs fuel _ _ (Vector.replicate 8 Packed.default) h
    (by rw [fullWindows_length]; exact hfuel)
  have hcl := chunksOf_length hs0 (fullWindows w data) (by rw [fullWindows_length]; exact hmul)
  rw [fullWindows_length] at hcl
  have hget : ∀ q (hq : q < (chunksOf s (fullWindows w data)).length),
      (chunksOf s (fullWindows w data))[q] = ((fullWindows w data).drop (q * s)).take s ∧
      (q + 1) * s ≤ data.length / w := by
    intro q hq
    have h1 := chunksOf_getElem? hs0 q (fullWindows w data)
    rw [hcl] at hq
    have h2 : (q + 1) * s ≤ data.length / w / s * s := Nat.mul_le_mul_right _ hq
    have h3 := Nat.div_mul_le_self (data.length / w) s
    rw [Nat.succ_mul] at h2
    rw [if_pos (by rw [fullWindows_length]; omega)] at h1
    exact ⟨(List.getElem?_eq_some_iff.mp h1).2, by rw [Nat.succ_mul]; omega⟩
  have hcs : ∀ v ∈ chunksOf s (fullWindows w data), v.length = s := by
    intro v hv
    obtain ⟨q, hq, rfl⟩ := List.getElem_of_mem hv
    obtain ⟨h1, h2⟩ := hget q hq
    rw [Nat.succ_mul] at h2
    rw [h1, List.length_take, List.length_drop, fullWindows_length]
    omega
  obtain ⟨xs, e, hl, hr⟩ := mapM_exists f
    (fun v x => x.length = s ∧ ∀ k j (hk : k < x.length) (hj : j < w),
      g k j < s * w ∧ (lanes v)[g k j]? = some x[k][j])
    (chunksOf s (fullWindows w data)) (fun v hv => hf v (hcs v hv))
  refine ⟨xs, ?_, ?_, ?_, ?_⟩
  · simp only [unroll, Faster.assert, hs, decide_true, if_true, ok_bind]
    exact hloop.trans e
  · rw [hl, hcl, Nat.div_div_eq_div_mul, Nat.mul_comm]
  · intro x hx
    obtain ⟨q, hq, rfl⟩ := List.getElem_of_mem hx
    exact (hr q (by omega) hq).1
  · intro q k j hq hk hj
    obtain ⟨h1, h2⟩ := hget q (by omega)
    obtain ⟨h4, h3⟩ := (hr q (by omega) hq).2 k j hk hj
    have hcl : (chunksOf s (fullWindows w data))[q].length = s := hcs _ (List.getElem_mem _)
    rw [← h3, h1]
    have h5 : fullWindows w data = (fullWindows w data).take (q * s) ++
        (((fullWindows w data).drop (q * s)).take s ++ ((fullWindows w data).drop (q * s)).drop s) := by
      rw [List.take_append_drop, List.take_append_drop]
    have h6 := lanes_fullWindows hw data
    rw [Nat.succ_mul] at h2
    have h7 : (lanes ((fullWindows w data).take (q * s))).length = q * s * w := by
      rw [lanes_length, List.length_take, fullWindows_length, Nat.min_eq_left (by omega)]
    have h8 : (lanes (((fullWindows w data).drop (q * s)).take s)).length = s * w := by
      rw [lanes_length, ← h1, hcl]
    rw [← Nat.mul_assoc]
    conv => lhs; rw [← h6, h5]
    rw [lanes_append, lanes_append, List.append_assoc, List.getElem?_append_right (by omega), h7,
      Nat.add_sub_cancel_left, List.append_assoc, List.getElem?_append_left (by omega)]

/-- **C86**, the loop over chunks: with a body which separates the residue classes of
a chunk, the loop separates those of the slice, if it consists of complete chunks. -/
theorem C86_chunks [Packable α] (c : Cfg) (fuel s : Nat) (data : List α)
    (d : Vector α w) {f : List (Vector α w) → Res (List (Vector α w))} (hf : SeparatesChunk s f)
    (hw : 0 < w) (hs0 : 0 < s) (hs : s ≤ 8) (hlen : data.length + w < c.usize)
    (hmul : data.length / w % s = 0) (hfuel : data.length / w < fuel) :
    ∃ xs, (do
      let u ← unroll (simdIter data d) s
      forChunks c f fuel u) = ok xs ∧ Deinterleaved s data xs := by
  have hg : GathersChunk s (fun k j => s * j + k) f := by
    intro v hv
    obtain ⟨x, e, hx, r⟩ := hf v hv
    refine ⟨x, e, hx, fun k j hk hj => ⟨?_, ?_⟩⟩
    · have : s * (j + 1) ≤ s * w := Nat.mul_le_mul_left _ hj
      rw [Nat.mul_succ] at this
      show s * j + k < s * w
      omega
    · have h := (r k hk).2 j (by rw [lanes_length, hv, Nat.mul_div_cancel_left _ hs0]; exact hj)
      rw [Vector.getElem?_toList, Vector.getElem?_eq_getElem hj] at h
      exact h.symm
  obtain ⟨xs, e, h1, h2, h3⟩ := chunks_gather c fuel s data d hg hw hs0 hs hlen hmul hfuel
  refine ⟨xs, e, h1, h2, fun q k j hq hk hj => ?_⟩
  rw [← h3 q k j hq hk hj, Nat.add_mul, Nat.mul_assoc q, Nat.mul_comm w s, Nat.mul_comm j s,
    Nat.add_assoc]

/-- **C86**: if the number of complete vectors is not a multiple of the size of the
chunks, the loop panics at the last chunk: its body indexes past its end. -/
theorem C86_incomplete [Packable α] (c : Cfg) (fuel s : Nat) (data : List α)
    (d : Vector α w) {f : List (Vector α w) → Res (List (Vector α w))}
    (hf : ∀ v : List (Vector α w), v.length = s → ∃ x, f v = ok x)
    (hshort : ∀ v : List (Vector α w), v.length < s → f v = panic)
    (hw : 0 < w) (hs0 : 0 < s) (hs : s ≤ 8) (hlen : data.length + w < c.usize)
    (hmul : data.length / w % s ≠ 0) (hfuel : data.length / w < fuel) :
    (do
      let u ← unroll (simdIter data d) s
      forChunks c f fuel u) = panic := by
  have h := simdIter_runs (represents_slice (w := w) c data) d hw hlen 0 (by omega)
  simp only [List.drop_zero] at h
  have hdm := Nat.div_add_mod (data.length - 0) w
  have hml := Nat.mod_lt (data.length - 0) hw
  rw [Nat.mul_comm] at hdm
  have hend := simdIter_next_none (represents_slice (w := w) c data)
    (p := 0 + (data.length - 0) / w * w) (d := d) (by omega) (by omega)
  have hloop := forChunks_eq hend f s hs0 hs fuel _ _ (Vector.replicate 8 Packed.default) h
    (by rw [fullWindows_length]; exact hfuel)
  simp only [unroll, Faster.assert, hs, decide_true, if_true, ok_bind]
  refine hloop.trans ?_
  obtain ⟨h1, h2, h3⟩ := C19_chunksOf s hs0 (fullWindows w data)
  have hne : chunksOf s (fullWindows w data) ≠ [] := by
    intro e
    rw [e] at h1
    have : (fullWindows w data).length = 0 := by rw [← h1]; rfl
    rw [fullWindows_length] at this
    rw [this, Nat.zero_mod] at hmul
    exact hmul rfl
  rw [← List.dropLast_append_getLast hne]
  refine mapM_last_panic f _ _ (hshort _ ?_) fun v hv => ?_
  · have h4 := (h3 _ (List.getLast_mem hne)).2
    refine Nat.lt_of_le_of_ne h4 fun e => hmul ?_
    have h5 : ∀ (ls : List (List (Vector α w))), (∀ x ∈ ls, x.length = s) →
        ls.flatten.length = ls.length * s := by
      intro ls
      induction ls with
      | nil => intro _; simp
      | cons x ls ih =>
        intro hx
        rw [List.flatten_cons, List.length_append, hx x (by simp), ih fun y hy => hx y (by simp [hy]),
          List.length_cons, Nat.succ_mul, Nat.add_comm]
    have h6 := h5 (chunksOf s (fullWindows w data)) (by
      intro x hx
      rw [← List.dropLast_append_getLast hne] at hx
      rcases List.mem_append.mp hx with hx | hx
      · exact h2 x hx
      · rw [List.mem_singleton.mp hx]; exact e)
    rw [h1, fullWindows_length] at h6
    rw [h6, Nat.mul_mod_left]
  · exact hf v (h2 v hv)

end

section
variable {α : Type} {w : Nat}

/-- A correct `destride_two` (C48). -/
theorem separates_two {two : Vector α w → Vector α w → Res (Vector α w × Vector α w)}
    (h : ∀ a b, ∃ x y, two a b = ok (x, y) ∧ IsResidue 2 0 (a.toList ++ b.toList) x.toList ∧
      IsResidue 2 1 (a.toList ++ b.toList) y.toList) :
    SeparatesChunk 2 (destrideTwoBody two) := by
  intro v hv
  match v, hv with
  | [a, b], _ =>
    obtain ⟨x, y, e, h0, h1⟩ := h a b
    refine ⟨[x, y], ?_, rfl, ?_⟩
    · simp [destrideTwoBody, index, e]
    · intro k hk
      simp only [lanes_cons, lanes_nil, List.append_nil]
      match k, hk with
      | 0, _ => exact h0
      | 1, _ => exact h1

/-- A correct `destride_four` (C49). -/
theorem separates_four {four : Vector α w → Vector α w → Vector α w → Vector α w →
      Res (Vector α w × Vector α w × Vector α w × Vector α w)}
    (h : ∀ a b c d, ∃ v0 v1 v2 v3, four a b c d = ok (v0, v1, v2, v3) ∧
      IsResidue 4 0 (a.toList ++ (b.toList ++ (c.toList ++ d.toList))) v0.toList ∧
      IsResidue 4 1 (a.toList ++ (b.toList ++ (c.toList ++ d.toList))) v1.toList ∧
      IsResidue 4 2 (a.toList ++ (b.toList ++ (c.toList ++ d.toList))) v2.toList ∧
      IsResidue 4 3 (a.toList ++ (b.toList ++ (c.toList ++ d.toList))) v3.toList) :
    SeparatesChunk 4 (destrideFourBody four) := by
  intro v hv
  match v, hv with
  | [a, b, c, d], _ =>
    obtain ⟨v0, v1, v2, v3, e, h0, h1, h2, h3⟩ := h a b c d
    refine ⟨[v0, v1, v2, v3], ?_, rfl, ?_⟩
    · simp [destrideFourBody, index, e]
    · intro k hk
      simp only [lanes_cons, lanes_nil, List.append_nil]
      match k, hk with
      | 0, _ => exact h0
      | 1, _ => exact h1
      | 2, _ => exact h2
      | 3, _ => exact h3

theorem destrideTwoBody_short (two : Vector α w → Vector α w → Res (Vector α w × Vector α w))
    (v : List (Vector α w)) (h : v.length < 2) : destrideTwoBody two v = panic := by
  match v, h with
  | [], _ => simp [destrideTwoBody, index]
  | [a], _ => simp [destrideTwoBody, index]

theorem destrideFourBody_short (four : Vector α w → Vector α w → Vector α w → Vector α w →
      Res (Vector α w × Vector α w × Vector α w × Vector α w))
    (v : List (Vector α w)) (h : v.length < 4) : destrideFourBody four v = panic := by
  match v, h with
  | [], _ => simp [destrideFourBody, index]
  | [a], _ => simp [destrideFourBody, index]
  | [a, b], _ => simp [destrideFourBody, index]
  | [a, b, d], _ => simp [destrideFourBody, index]

end

theorem destrideRows_width : ∀ r ∈ destrideRows ++ destrideRowsUnknown, 0 < r.width := by
  decide +kernel

/-- **C86**, `destride_two` bench, every type which uses the polyfill. -/
theorem C86_two {α : Type} [Packable α] (r : DestrideRow)
    (hr : r ∈ destrideRows ++ destrideRowsUnknown) (c : Cfg) (fuel : Nat) (data : List α)
    (d : Vector α r.width) (hlen : data.length + r.width < c.usize)
    (hfuel : data.length / r.width < fuel) :
    let loop := (do
      let u ← unroll (simdIter data d) 2
      forChunks c (destrideTwoBody (destrideTwoPolyfill r.two)) fuel u)
    (data.length / r.width % 2 = 0 → ∃ xs, loop = ok xs ∧ Deinterleaved 2 data xs) ∧
    (data.length / r.width % 2 ≠ 0 → loop = panic) := by
  have hw := destrideRows_width r hr
  have hs := separates_two (C48_polyfill (α := α) r hr)
  exact ⟨fun h => C86_chunks c fuel 2 data d hs hw (by omega) (by omega) hlen h hfuel,
    fun h => C86_incomplete c fuel 2 data d hs.ok (destrideTwoBody_short _) hw (by omega) (by omega)
      hlen h hfuel⟩

/-- **C86**, `destride_two` bench for bytes with SSSE3. -/
theorem C86_two_ssse3 (blend : Bool) (c : Cfg) (fuel : Nat) (data : List (BitVec 8))
    (d : Vector (BitVec 8) 16) (hlen : data.length + 16 < c.usize)
    (hfuel : data.length / 16 < fuel) :
    let loop := (do
      let u ← unroll (simdIter data d) 2
      forChunks c (destrideTwoBody (destrideTwoSsse3 blend c)) fuel u)
    (data.length / 16 % 2 = 0 → ∃ xs, loop = ok xs ∧ Deinterleaved 2 data xs) ∧
    (data.length / 16 % 2 ≠ 0 → loop = panic) := by
  have hs := separates_two (C48_ssse3 blend c)
  exact ⟨fun h => C86_chunks c fuel 2 data d hs (by omega) (by omega) (by omega) hlen h hfuel,
    fun h => C86_incomplete c fuel 2 data d hs.ok (destrideTwoBody_short _) (by omega) (by omega)
      (by omega) hlen h hfuel⟩

/-- The body with the AVX2 version of `destride_two`: lane `j` of the second vector is element
`2 * j + 32` of the chunk, modulo 64. -/
theorem gathers_avx2 : GathersChunk (w := 32) 2 (fun k j => if k = 0 then 2 * j else (2 * j + 32) % 64)
    (destrideTwoBody fun a b => ok (destrideTwoAvx2 a b)) := by
  intro v hv
  obtain ⟨a, b, rfl⟩ : ∃ a b, v = [a, b] := by
    match v, hv with
    | [a, b], _ => exact ⟨a, b, rfl⟩
  obtain ⟨r1, r2⟩ := C48_avx2 a b
  have lo : ∀ (x y : Vector (BitVec 8) 32) i (hi : i < 32), (x.toList ++ y.toList)[i]? = some x[i] := by
    intro x y i hi
    rw [List.getElem?_append_left (by simpa using hi)]; simp [hi]
  have hi : ∀ (x y : Vector (BitVec 8) 32) i (hi : i < 32),
      (x.toList ++ y.toList)[32 + i]? = some y[i] := by
    intro x y i hi
    rw [List.getElem?_append_right (by simp)]; simp [hi]
  refine ⟨_, rfl, rfl, fun k j hk hj => ?_⟩
  have hl : lanes [a, b] = a.toList ++ b.toList := by simp [lanes]
  rw [hl]
  have hk2 : k < 2 := hk
  obtain rfl | rfl : k = 0 ∨ k = 1 := by omega
  · simp only [if_true]
    refine ⟨by omega, ?_⟩
    have := r1.2 j (by simp; omega)
    rw [Vector.getElem?_toList, Vector.getElem?_eq_getElem hj] at this
    exact this.symm
  · simp only [if_neg (show ¬ 1 = 0 by omega)]
    refine ⟨by omega, ?_⟩
    have := r2.2 j (by simp; omega)
    rw [Vector.getElem?_toList, Vector.getElem?_eq_getElem hj] at this
    refine Eq.trans ?_ this.symm
    by_cases hj16 : j < 16
    · rw [show (2 * j + 32) % 64 = 32 + 2 * j by omega, hi a b _ (by omega), Nat.add_zero,
        lo b a _ (by omega)]
    · rw [show (2 * j + 32) % 64 = 2 * j - 32 by omega, lo a b _ (by omega),
        show 2 * j + 0 = 32 + (2 * j - 32) by omega, hi b a _ (by omega)]

/-- **C86**, `destride_two` bench for bytes with AVX2, exact: the first vectors hold the even
elements of each 64 bytes; the second vectors hold the even elements too, with their halves exchanged
instead of the odd elements. An incomplete last chunk panics. -/
theorem C86_two_avx2 (c : Cfg) (fuel : Nat) (data : List (BitVec 8))
    (d : Vector (BitVec 8) 32) (hlen : data.length + 32 < c.usize)
    (hfuel : data.length / 32 < fuel) :
    let loop := (do
      let u ← unroll (simdIter data d) 2
      forChunks c (destrideTwoBody fun a b => ok (destrideTwoAvx2 a b)) fuel u)
    (data.length / 32 % 2 = 0 → ∃ xs : List (List (Vector (BitVec 8) 32)), loop = ok xs ∧
      xs.length = data.length / 64 ∧ (∀ x ∈ xs, x.length = 2) ∧
      ∀ q j (hq : q < xs.length) (hj : j < 32),
        (∀ h : 0 < xs[q].length, data[64 * q + 2 * j]? = some xs[q][0][j]) ∧
        (∀ h : 1 < xs[q].length, data[64 * q + (2 * j + 32) % 64]? = some xs[q][1][j])) ∧
    (data.length / 32 % 2 ≠ 0 → loop = panic) := by
  refine ⟨fun h => ?_, fun h => ?_⟩
  · obtain ⟨xs, e, h1, h2, h3⟩ :=
      chunks_gather c fuel 2 data d gathers_avx2 (by omega) (by omega) (by omega) hlen h hfuel
    refine ⟨xs, e, h1, h2, fun q j hq hj => ⟨fun h => ?_, fun h => ?_⟩⟩
    · have := h3 q 0 j hq h hj
      rw [← this, Nat.mul_comm 64]; rfl
    · have := h3 q 1 j hq h hj
      rw [← this, Nat.mul_comm 64]; rfl
  · exact C86_incomplete c fuel 2 data d
      (fun v hv => let ⟨x, e, _⟩ := gathers_avx2 v hv; ⟨x, e⟩) (destrideTwoBody_short _)
      (by omega) (by omega) (by omega) hlen h hfuel

/-- **C86** for bytes with AVX2: the bench is right on exactly the slices whose odd elements are the
even elements of the other vector of their chunk. -/
theorem C86_two_avx2_iff (c : Cfg) (fuel : Nat) (data : List (BitVec 8))
    (d : Vector (BitVec 8) 32) (hlen : data.length + 32 < c.usize)
    (hfuel : data.length / 32 < fuel) (hmul : data.length / 32 % 2 = 0) :
    (∃ xs, (do
      let u ← unroll (simdIter data d) 2
      forChunks c (destrideTwoBody fun a b => ok (destrideTwoAvx2 a b)) fuel u) = ok xs ∧
      Deinterleaved 2 data xs) ↔
    ∀ q i, q < data.length / 64 → i < 16 →
      data[64 * q + 2 * i + 1]? = data[64 * q + 32 + 2 * i]? ∧
      data[64 * q + 32 + 2 * i + 1]? = data[64 * q + 2 * i]? := by
  obtain ⟨xs, e, h1, h2, h3⟩ := (C86_two_avx2 c fuel data d hlen hfuel).1 hmul
  constructor
  · rintro ⟨ys, e', h⟩ q i hq hi
    obtain rfl : xs = ys := by
      have := e.symm.trans e'
      cases this
      rfl
    have hl := h2 _ (List.getElem_mem (show q < xs.length by omega))
    have r1 := h.2.2 q 1 i (by omega) (by omega) (by omega)
    have r2 := h.2.2 q 1 (16 + i) (by omega) (by omega) (by omega)
    have s1 := (h3 q i (by omega) (by omega)).2 (by omega)
    have s2 := (h3 q (16 + i) (by omega) (by omega)).2 (by omega)
    rw [show (q * 32 + i) * 2 + 1 = 64 * q + 2 * i + 1 by omega] at r1
    rw [show (q * 32 + (16 + i)) * 2 + 1 = 64 * q + 32 + 2 * i + 1 by omega] at r2
    rw [show 64 * q + (2 * i + 32) % 64 = 64 * q + 32 + 2 * i by omega] at s1
    rw [show 64 * q + (2 * (16 + i) + 32) % 64 = 64 * q + 2 * i by omega] at s2
    exact ⟨r1.trans s1.symm, r2.trans s2.symm⟩
  · intro h
    refine ⟨xs, e, h1, h2, fun q k j hq hk hj => ?_⟩
    have hl := h2 _ (List.getElem_mem hq)
    obtain rfl | rfl : k = 0 ∨ k = 1 := by omega
    · rw [← (h3 q j hq hj).1 hk]
      congr 1; omega
    · rw [← (h3 q j hq hj).2 hk]
      by_cases hj16 : j < 16
      · rw [show (q * 32 + j) * 2 + 1 = 64 * q + 2 * j + 1 by omega,
          show 64 * q + (2 * j + 32) % 64 = 64 * q + 32 + 2 * j by omega]
        exact (h q j (by omega) hj16).1
      · obtain ⟨i, rfl⟩ : ∃ i, j = 16 + i := ⟨j - 16, by omega⟩
        rw [show (q * 32 + (16 + i)) * 2 + 1 = 64 * q + 32 + 2 * i + 1 by omega,
          show 64 * q + (2 * (16 + i) + 32) % 64 = 64 * q + 2 * i by omega]
        exact (h q i (by omega) (by omega)).2

/-- **C86**, `destride_four` bench, every type. -/
theorem C86_four {α : Type} [Packable α] (r : DestrideRow)
    (hr : r ∈ destrideRows ++ destrideRowsUnknown) (c : Cfg) (fuel : Nat) (data : List α)
    (d : Vector α r.width) (hlen : data.length + r.width < c.usize)
    (hfuel : data.length / r.width < fuel) :
    let loop := (do
      let u ← unroll (simdIter data d) 4
      forChunks c (destrideFourBody (destrideFourPolyfill r.four)) fuel u)
    (data.length / r.width % 4 = 0 → ∃ xs, loop = ok xs ∧ Deinterleaved 4 data xs) ∧
    (data.length / r.width % 4 ≠ 0 → loop = panic) := by
  have hw := destrideRows_width r hr
  have hs := separates_four (four := destrideFourPolyfill r.four) (fun a b x y => by
    obtain ⟨v0, v1, v2, v3, e, h0, h1, h2, h3, -⟩ := C49 (α := α) r hr a b x y
    exact ⟨v0, v1, v2, v3, e, h0, h1, h2, h3⟩)
  exact ⟨fun h => C86_chunks c fuel 4 data d hs hw (by omega) (by omega) hlen h hfuel,
    fun h => C86_incomplete c fuel 4 data d hs.ok (destrideFourBody_short _) hw (by omega) (by omega)
      hlen h hfuel⟩

/-! ### The zipped strides of the same data -/

theorem PowT.toList_length {T : Type} : ∀ {n : Nat} (t : PowT T n), (PowT.toList t).length = n
  | 0, _ => rfl
  | n + 1, t => by simp [PowT.toList, PowT.toList_length (PowT.tail t)]

/-- A closure which records the tuples it is called with. -/
def recordFn {α : Type} {w n : Nat} :
    FnMut (List (List (Vector α w))) (Vector α w × PowT (Vector α w) n) Unit :=
  fun log v => ok ((), log ++ [v.1 :: PowT.toList v.2])

theorem callAll_record {α : Type} {w n : Nat} (vs : List (Vector α w × PowT (Vector α w) n))
    (log : List (List (Vector α w))) :
    ∃ us, callAll recordFn log vs = ok (us, log ++ vs.map fun v => v.1 :: PowT.toList v.2) := by
  induction vs generalizing log with
  | nil => exact ⟨[], by simp [callAll]⟩
  | cons v vs ih =>
    obtain ⟨us, e⟩ := ih (log ++ [v.1 :: PowT.toList v.2])
    exact ⟨() :: us, by simp [callAll, recordFn] at e ⊢; simp [e]⟩

/-- **C86**, the benches with strided iterators (benches/destride.rs:77-84): every
stride `n + 1`. The closure of `simd_do_each` sees the same vectors, if the slice
consists of complete chunks. -/
theorem C86_strides {α : Type} [Packable α] {w : Nat} (c : Cfg) (n fuel : Nat) (data : List α)
    (D : Nat → Vector α w) (hw : 0 < w) (hu : data.length + (n + 1) * (w + 1) < c.usize)
    (hmul : data.length / (n + 1) % w = 0) (hfuel : data.length / (n + 1) / w < fuel) :
    ∃ xs, (do
      let z ← zip c (strideAt (⟨data⟩ : Slice α w) (n + 1) 0 (D 0))
        (PowT.mk (fun k => strideAt (⟨data⟩ : Slice α w) (n + 1) k (D k)) n 1)
      let (_, log) ← zsimdDoEach c fuel z [] recordFn
      ok log) = ok xs ∧ Deinterleaved (n + 1) data xs := by
  have hle := Nat.div_le_self data.length (n + 1)
  have hw1 : w + 1 ≤ (n + 1) * (w + 1) := Nat.le_mul_of_pos_left _ (by omega)
  generalize hN : data.length / (n + 1) = N at *
  let f : Nat → Nat → α := fun k i => data.getD (k + (n + 1) * i) Packable.zero
  have e : ∀ k (hk : k < n + 1), (List.range N).map (f k) = strided (n + 1) k data hk := by
    intro k hk
    apply List.ext_getElem
    · simp [hN]
    · intro i h1 h2
      have h3 := strided_index hk (show i < data.length / (n + 1) by rw [hN]; simpa using h1)
      simp [strided_getElem, f, h3]
  have h1 := PowT.rep (c := c) (fun k => strideAt (⟨data⟩ : Slice α w) (n + 1) k (D k)) f D N n 1
    (by
      intro k _ hk
      rw [e k (by omega)]
      exact repIter_strideAt c data (by omega) (D k) hw hu)
  let rows : List (α × PowT α n) := (List.range N).map fun i => (f 0 i, PowT.mk (fun m => f m i) n 1)
  let dv : Vector (α × PowT α n) w :=
    Vector.ofFn (n := w) fun j => ((D 0)[j], PowT.mk (fun m => (D m)[j]) n 1)
  have hrl : rows.length = N := by simp [rows]
  have key := C24_zip_do_each_general (c := c)
    (S := fun p => (⟨⟨data⟩, 0 + (n + 1) * p, 0, n + 1, D 0⟩ : PackedStride (Slice α w) α w))
    (rows := rows) (dv := dv)
    (by
      rw [show rows.map Prod.fst = strided (n + 1) 0 data (by omega) by
            rw [← e 0 (by omega)]; simp [rows],
        show dv.map Prod.fst = D 0 by ext j hj; simp [dv]]
      exact stride_driver (represents_slice c data) (by omega) (D 0) hw hu) hw
    (by
      rw [show rows.map Prod.snd = (List.range N).map fun i => PowT.mk (fun m => f m i) n 1 by
            simp [rows],
        show dv.map Prod.snd = Vector.ofFn (n := w) fun j => PowT.mk (fun m => (D m)[j]) n 1 by
          ext j hj; simp [dv]]
      exact h1)
    (by rw [hrl]; omega) fuel ([] : List (List (Vector α w))) recordFn (by rw [hrl]; exact hfuel)
  obtain ⟨us, e2⟩ := callAll_record (w := w) (n := n) ((calls w dv rows).map
    (packRow (PowT (PackedStride (Slice α w) α w) n))) []
  rw [e2] at key
  simp only [ok_bind, List.nil_append] at key
  have hc : calls w dv rows = fullWindows w rows := by
    simp [calls, hrl, hmul]
  rw [hc, List.map_map] at key
  refine ⟨(fullWindows w rows).map ((fun v => v.1 :: PowT.toList v.2) ∘
    packRow (PowT (PackedStride (Slice α w) α w) n)), ?_, ?_⟩
  · rw [← bind_assoc]
    exact congrArg (· >>= fun p => ok p.2) key
  · refine ⟨?_, ?_, ?_⟩
    · rw [List.length_map, fullWindows_length, hrl, ← hN, Nat.div_div_eq_div_mul]
    · intro x hx
      obtain ⟨v, -, rfl⟩ := List.mem_map.mp hx
      simp [PowT.toList_length]
    · intro q k j hq hk hj
      have hq' : q < N / w := by rw [List.length_map, fullWindows_length, hrl] at hq; exact hq
      have hq2 : q < (fullWindows w rows).length := by rw [fullWindows_length, hrl]; exact hq'
      have hqw : q * w + j < N := by
        have h3 : (q + 1) * w ≤ N / w * w := Nat.mul_le_mul_right _ hq'
        have h4 := Nat.div_mul_le_self N w
        rw [Nat.succ_mul] at h3
        omega
      simp only [List.getElem_map, Function.comp] at hk ⊢
      have hk' : k < n + 1 := by simpa [PowT.toList_length] using hk
      have hx : ∀ (l : List (Vector α w)) (hk : k < l.length), some l[k][j] = (l.map (·[j]))[k]? := by
        intro l hk; simp [hk]
      rw [hx]
      have hv : (fullWindows w rows)[q][j] = (f 0 (q * w + j), PowT.mk (fun m => f m (q * w + j)) n 1) := by
        simp [fullWindows, rows]
      have hp := PowT.pack_lane (T := PackedStride (Slice α w) α w) j hj n
        ((fullWindows w rows)[q].map Prod.snd)
      simp only [packRow, List.map_cons, hp, Vector.getElem_map, hv, PowT.toList_mk]
      rw [show f 0 (q * w + j) :: (List.range' 1 n).map (fun m => f m (q * w + j)) =
        (List.range (n + 1)).map fun m => f m (q * w + j) by
          simp [List.range_eq_range', List.range'_succ]]
      have hb := strided_index hk' (show q * w + j < data.length / (n + 1) by rw [hN]; exact hqw)
      rw [List.getElem?_map, List.getElem?_range hk', Nat.mul_comm, Nat.add_comm]
      simp [f, List.getElem?_eq_getElem hb]

/-- **C86**: the two programs of the bench for stride two give the closure the same
vectors. Missing: the AVX2 version of `destride_two`, for which this is false. -/
theorem C86_two_same_partial {α : Type} [Packable α] (r : DestrideRow)
    (hr : r ∈ destrideRows ++ destrideRowsUnknown) (c : Cfg) (fuel : Nat) (data : List α)
    (d d0 d1 : Vector α r.width) (hu : data.length + 2 * (r.width + 1) < c.usize)
    (hmul : data.length % (2 * r.width) = 0) (hfuel : data.length / r.width < fuel) :
    (do
      let u ← unroll (simdIter data d) 2
      forChunks c (destrideTwoBody (destrideTwoPolyfill r.two)) fuel u) =
    (do
      let t := strideTwo (⟨data⟩ : Slice α r.width) (d0, d1)
      let z ← zip c t.1 (t.2, ())
      let (_, log) ← zsimdDoEach c fuel z []
        (fun log (v : Vector α r.width × Vector α r.width × Unit) => ok ((), log ++ [[v.1, v.2.1]]))
      ok log) := by
  have hw := destrideRows_width r hr
  obtain ⟨m, hm⟩ : ∃ m, data.length = 2 * r.width * m := ⟨data.length / (2 * r.width), by
    have := Nat.div_add_mod data.length (2 * r.width); omega⟩
  have e1 : data.length / r.width = m * 2 := by
    rw [hm, Nat.mul_comm 2, Nat.mul_assoc, Nat.mul_div_cancel_left _ hw, Nat.mul_comm]
  have e2 : data.length / 2 = r.width * m := by
    rw [hm, Nat.mul_assoc, Nat.mul_div_cancel_left _ (by omega)]
  obtain ⟨xs, h1, h2⟩ := (C86_two r hr c fuel data d (by omega) hfuel).1
    (by rw [e1, Nat.mul_mod_left])
  obtain ⟨ys, h3, h4⟩ := C86_strides c 1 fuel data (fun k => if k = 0 then d0 else d1) hw hu
    (by rw [e2, Nat.mul_mod_right]) (by rw [e2, Nat.mul_div_cancel_left _ hw]; omega)
  rw [h1, C86_unique h2 h4, ← h3]
  rfl

/-- **C86**: the same for bytes with SSSE3. -/
theorem C86_two_same_ssse3 (blend : Bool) (c : Cfg) (fuel : Nat) (data : List (BitVec 8))
    (d d0 d1 : Vector (BitVec 8) 16) (hu : data.length + 34 < c.usize)
    (hmul : data.length % 32 = 0) (hfuel : data.length / 16 < fuel) :
    (do
      let u ← unroll (simdIter data d) 2
      forChunks c (destrideTwoBody (destrideTwoSsse3 blend c)) fuel u) =
    (do
      let t := strideTwo (⟨data⟩ : Slice (BitVec 8) 16) (d0, d1)
      let z ← zip c t.1 (t.2, ())
      let (_, log) ← zsimdDoEach c fuel z []
        (fun log (v : Vector (BitVec 8) 16 × Vector (BitVec 8) 16 × Unit) =>
          ok ((), log ++ [[v.1, v.2.1]]))
      ok log) := by
  obtain ⟨xs, h1, h2⟩ := (C86_two_ssse3 blend c fuel data d (by omega) hfuel).1 (by omega)
  obtain ⟨ys, h3, h4⟩ := C86_strides c 1 fuel data (fun k => if k = 0 then d0 else d1)
    (by omega) (by omega) (by omega) (by omega)
  rw [h1, C86_unique h2 h4, ← h3]
  rfl

/-- **C86**: the two programs of the bench for stride four. -/
theorem C86_four_same {α : Type} [Packable α] (r : DestrideRow)
    (hr : r ∈ destrideRows ++ destrideRowsUnknown) (c : Cfg) (fuel : Nat) (data : List α)
    (d : Vector α r.width) (D : Nat → Vector α r.width)
    (hu : data.length + 4 * (r.width + 1) < c.usize)
    (hmul : data.length % (4 * r.width) = 0) (hfuel : data.length / r.width < fuel) :
    (do
      let u ← unroll (simdIter data d) 4
      forChunks c (destrideFourBody (destrideFourPolyfill r.four)) fuel u) =
    (do
      let t := strideFour (⟨data⟩ : Slice α r.width) (D 0, D 1, D 2, D 3)
      let z ← zip c t.1 (t.2.1, t.2.2.1, t.2.2.2, ())
      let (_, log) ← zsimdDoEach c fuel z []
        (fun log (v : Vector α r.width × Vector α r.width × Vector α r.width × Vector α r.width ×
          Unit) => ok ((), log ++ [[v.1, v.2.1, v.2.2.1, v.2.2.2.1]]))
      ok log) := by
  have hw := destrideRows_width r hr
  obtain ⟨m, hm⟩ : ∃ m, data.length = 4 * r.width * m := ⟨data.length / (4 * r.width), by
    have := Nat.div_add_mod data.length (4 * r.width); omega⟩
  have e1 : data.length / r.width = m * 4 := by
    rw [hm, Nat.mul_comm 4, Nat.mul_assoc, Nat.mul_div_cancel_left _ hw, Nat.mul_comm]
  have e2 : data.length / 4 = r.width * m := by
    rw [hm, Nat.mul_assoc, Nat.mul_div_cancel_left _ (by omega)]
  obtain ⟨xs, h1, h2⟩ := (C86_four r hr c fuel data d (by omega) hfuel).1
    (by rw [e1, Nat.mul_mod_left])
  obtain ⟨ys, h3, h4⟩ := C86_strides c 3 fuel data D hw hu
    (by rw [e2, Nat.mul_mod_right]) (by rw [e2, Nat.mul_div_cancel_left _ hw]; omega)
  rw [h1, C86_unique h2 h4, ← h3]
  rfl

/-- **C86 is false for bytes with AVX2**: the bench's `u8s` are `u8x32` there, and
`destride_two` is wrong (C48). -/
theorem C86_false :
    let data : List (BitVec 8) := (List.range 64).map (BitVec.ofNat 8)
    ∀ xs, (do
      let u ← unroll (simdIter data (Vector.replicate 32 (0 : BitVec 8))) 2
      forChunks release64 (destrideTwoBody fun a b => ok (destrideTwoAvx2 a b)) 9 u) = ok xs →
      ¬ Deinterleaved 2 data xs := by
  intro data xs h hd
  have e : (do
      let u ← unroll (simdIter data (Vector.replicate 32 (0 : BitVec 8))) 2
      forChunks release64 (destrideTwoBody fun a b => ok (destrideTwoAvx2 a b)) 9 u) =
      ok [[Vector.ofFn fun i : Fin 32 => BitVec.ofNat 8 (2 * i.val),
        Vector.ofFn fun i : Fin 32 => BitVec.ofNat 8 (2 * ((i.val + 16) % 32))]] := by
    decide +kernel
  rw [e] at h
  cases h
  have := hd.2.2 0 1 0 (by decide) (by decide) (by decide)
  revert this
  decide +kernel

/-- Eight elements, two lanes. -/
example : (do
    let u ← unroll (simdIter [1#16, 2, 3, 4, 5, 6, 7, 8] #v[0, 0]) 2
    forChunks debug64 (destrideTwoBody (destrideTwoPolyfill [0])) 9 u) =
    ok [[#v[1, 3], #v[2, 4]], [#v[5, 7], #v[6, 8]]] := by decide +kernel
example : (do
    let t := strideTwo (⟨[1#16, 2, 3, 4, 5, 6, 7, 8]⟩ : Slice _ 2) (#v[0#16, 0], #v[0, 0])
    let z ← zip debug64 t.1 (t.2, ())
    let (_, log) ← zsimdDoEach debug64 9 z []
      (fun log (v : Vector (BitVec 16) 2 × Vector (BitVec 16) 2 × Unit) => ok ((), log ++ [[v.1, v.2.1]]))
    ok log) = ok [[#v[1, 3], #v[2, 4]], [#v[5, 7], #v[6, 8]]] := by decide +kernel

end Faster
