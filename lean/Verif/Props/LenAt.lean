import Verif.Props.CollectAt
/-
C16: `len()` against the number of vectors `next` still returns, for slices, strides, maps and zips
at every position.
-/
namespace Faster
open Res SIMDSized SIMDIterable SIMDIterator

section
variable {I α : Type} {w : Nat} [SIMDSized I] [SIMDIterator I α w]
variable {c : Cfg} {S : Nat → I} {l : List α} {d : Vector α w} {more : Nat → Prop}

/-- **C16**, any iterator which walks over a list, at any position: `len()` stays the number of full
vectors of the whole list, while `next` returns the full vectors of the rest. If nothing is left
over, the iterator may keep the last full vector for `end`. -/
theorem C16_driver [DecidablePred more] (h : Driver c S l d more) (hw : 0 < w) (p : Nat)
    (hp : p ≤ l.length) :
    SIMDIterable.len c (S p) = ok (l.length / w) ∧ ∃ vs r, Runs c (S p) vs (ok r) ∧
      vs.length = (l.length - p) / w -
        (if (l.length - p) % w = 0 ∧ p < l.length ∧ ¬ more (l.length - w) then 1 else 0) := by
  refine ⟨h.len p, ?_⟩
  obtain ⟨n, hr, hm, hc, hlast⟩ := h.runs_more hw p hp
  refine ⟨_, _, hr, ?_⟩
  obtain ⟨h1, h2, h3, h4⟩ := Driver.count_cases hw hc
  rw [Driver.count, List.length_drop] at hc
  rw [List.length_drop] at h1 h2 h3 h4
  rw [List.length_take, fullWindows_length, List.length_drop, Nat.min_eq_left h1]
  have hd := Nat.div_add_mod (l.length - p) w
  rw [Nat.mul_comm] at hd
  by_cases hi : (l.length - p) % w = 0 ∧ p < l.length ∧ ¬ more (l.length - w)
  · rw [if_pos hi]
    rcases hc with hc | hc
    · exfalso
      rw [← hc] at hd
      have h0 : 0 < n := by
        rcases Nat.eq_zero_or_pos n with h0 | h0
        · rw [h0, Nat.zero_mul] at hd; omega
        · exact h0
      have := hlast h0
      rw [show p + n * w = l.length by omega] at this
      exact hi.2.2 this
    · rw [← hc.2, Nat.add_sub_cancel]
  · rw [if_neg hi, Nat.sub_zero]
    rcases hc with hc | hc
    · exact hc
    · exfalso
      rw [← hc.2, Nat.succ_mul] at hd
      apply hi
      refine ⟨hc.1, by omega, fun hmore => hm ?_⟩
      rwa [show p + n * w = l.length - w by omega]

end

section
variable {α : Type} {w : Nat} (c : Cfg) (l : List α) (d : Vector α w)

/-- **C16**, slice iterators at every position: `len()` is right exactly if fewer elements have been
consumed than the incomplete last vector has. -/
theorem C16_slice_iff (p : Nat) (hp : p ≤ l.length) (hw : 0 < w) (hlen : l.length + w < c.usize) :
    (∃ vs r, Runs c (⟨p, ⟨l⟩, d⟩ : SIMDIter (Slice α w) α w) vs (ok r) ∧
      SIMDIterable.len c (⟨p, ⟨l⟩, d⟩ : SIMDIter (Slice α w) α w) = ok vs.length) ↔
    p ≤ l.length % w := by
  obtain ⟨h1, vs, r, h2, h3⟩ := C16_driver
    (simdIter_driver (represents_slice (w := w) c l) d hw hlen) hw p hp
  have hd := Nat.div_add_mod l.length w
  have hd' := Nat.div_add_mod (l.length - p) w
  have hm := Nat.mod_lt l.length hw
  have hm' := Nat.mod_lt (l.length - p) hw
  rw [Nat.mul_comm] at hd hd'
  have h4 : vs.length = (l.length - p) / w := by
    rw [h3, if_neg, Nat.sub_zero]
    rintro ⟨e1, e2, e3⟩
    have : 0 < (l.length - p) / w := by
      rcases Nat.eq_zero_or_pos ((l.length - p) / w) with h | h
      · rw [h, Nat.zero_mul] at hd'; omega
      · exact h
    have := Nat.le_mul_of_pos_left w this
    omega
  have h5 : (l.length - p) / w = l.length / w ↔ p ≤ l.length % w := by
    constructor
    · intro e; rw [e] at hd'; omega
    · intro e
      have : l.length - p = (l.length % w - p) + l.length / w * w := by omega
      rw [this, Nat.add_mul_div_right _ _ hw, Nat.div_eq_of_lt (by omega), Nat.zero_add]
  rw [← h5, ← h4]
  constructor
  · rintro ⟨us, s, h6, h7⟩
    obtain ⟨e, -⟩ := Runs.unique h2 h6
    rw [h1] at h7
    rw [e]
    exact (Res.ok.inj h7).symm
  · intro e
    exact ⟨vs, r, h2, by rw [e]; exact h1⟩

/-- **C16**, fresh strides: `len()` is right exactly unless the stride has a whole number of vectors,
at least one, and no further element in the last group. -/
theorem C16_stride_iff [Packable α] {s k : Nat} (hk : k < s) (hw : 0 < w)
    (hlen : l.length + s * (w + 1) < c.usize) :
    (∃ vs r, Runs c (strideAt (⟨l⟩ : Slice α w) s k d) vs (ok r) ∧
      SIMDIterable.len c (strideAt (⟨l⟩ : Slice α w) s k d) = ok vs.length) ↔
    ¬ (0 < l.length / s ∧ l.length / s % w = 0 ∧ l.length % s ≤ k) := by
  have hl2 := strided_length s k l hk
  obtain ⟨h1, vs, r, h2, h3⟩ := C16_driver
    (stride_driver (represents_slice (w := w) c l) hk d hw hlen) hw 0 (Nat.zero_le _)
  rw [hl2] at h1
  rw [hl2, Nat.sub_zero] at h3
  have e0 : (⟨⟨l⟩, k + s * 0, k, s, d⟩ : PackedStride (Slice α w) α w) =
    strideAt (⟨l⟩ : Slice α w) s k d := rfl
  rw [e0] at h1 h2
  generalize hm : l.length / s = m at *
  have hls := Nat.div_add_mod l.length s
  rw [hm] at hls
  have hd := Nat.div_add_mod m w
  rw [Nat.mul_comm] at hd
  have h4 : (m % w = 0 ∧ 0 < m ∧ ¬ k + s * (m - w + w) < l.length) ↔
      (0 < m ∧ m % w = 0 ∧ l.length % s ≤ k) := by
    by_cases h5 : m % w = 0 ∧ 0 < m
    · have h6 : w ≤ m := Nat.le_of_dvd h5.2 (Nat.dvd_of_mod_eq_zero h5.1)
      rw [show m - w + w = m by omega]
      omega
    · constructor
      · intro h; exact absurd ⟨h.1, h.2.1⟩ h5
      · intro h; exact absurd ⟨h.2.1, h.1⟩ h5
  rw [← h4]
  constructor
  · rintro ⟨us, t, h6, h7⟩ hi
    obtain ⟨e, -⟩ := Runs.unique h2 h6
    rw [h1] at h7
    rw [if_pos hi, e, ← Res.ok.inj h7] at h3
    have : 0 < m / w := Nat.div_pos (Nat.le_of_dvd hi.2.1 (Nat.dvd_of_mod_eq_zero hi.1)) hw
    omega
  · intro hi
    rw [if_neg hi, Nat.sub_zero] at h3
    exact ⟨vs, r, h2, by rw [h3]; exact h1⟩

/-- **C16** is false of fresh strides too: of four elements, stride 0 of 2 claims one vector of two
lanes, and `next` returns none. -/
example : SIMDIterable.len debug64 (strideAt (⟨[1#8, 2, 3, 4]⟩ : Slice (BitVec 8) 2) 2 0 #v[0#8, 0]) =
    ok 1 ∧ (next debug64 (strideAt (⟨[1#8, 2, 3, 4]⟩ : Slice (BitVec 8) 2) 2 0 #v[0#8, 0]) >>=
      fun r => ok r.1) = ok none := by decide +kernel

example : ∃ vs r, Runs debug64 (⟨1, ⟨[1#8, 2, 3]⟩, #v[0, 0]⟩ : SIMDIter (Slice (BitVec 8) 2)
      (BitVec 8) 2) vs (ok r) ∧
    SIMDIterable.len debug64 (⟨1, ⟨[1#8, 2, 3]⟩, #v[0, 0]⟩ : SIMDIter (Slice (BitVec 8) 2)
      (BitVec 8) 2) = ok vs.length :=
  (C16_slice_iff debug64 [1#8, 2, 3] #v[0, 0] 1 (by decide) (by decide) (by decide)).2 (by decide)

end

section
variable {I σ α β : Type} {w w' : Nat} [SIMDSized I] [SIMDIterator I α w] [Packable α] [Packable β]

/-- **C16**, maps: `len()` of a map is right exactly if that of the iterator below is, for a closure
which returns on all vectors. -/
theorem C16_map_iff {c : Cfg} (f : FnMut σ (Vector α w) (Vector β w')) {it it' : I} (st : σ)
    {vs : List (Vector α w)} (h : Runs c it vs (ok it')) {q : List (Vector β w') × σ}
    (hf : callAll f st vs = ok q) :
    (∃ us r, Runs c (simdMap it st f) us (ok r) ∧
      SIMDIterable.len c (simdMap it st f) = ok us.length) ↔
    SIMDIterable.len c it = ok vs.length := by
  have hr := simdMap_runs f h st
  have hlen := callAll_length f st vs hf
  rw [callAll_mapRun] at hf
  cases h2 : (mapRun f st vs).2 with
  | ok a =>
    have hl := mapRun_length f st a vs h2
    rw [h2] at hr
    simp only [ok_bind] at hr
    constructor
    · rintro ⟨us, r, h3, h4⟩
      obtain ⟨e, -⟩ := Runs.unique hr h3
      rw [← e, hl] at h4
      exact h4
    · intro h4
      exact ⟨_, _, hr, by rw [hl]; exact h4⟩
  | _ => rw [h2] at hf; cases hf

end

section
variable {I R α γ δ : Type} {w : Nat} [SIMDSized I] [SIMDIterator I α w] [Packable α]
  [ZipRest R γ] [LawfulRest R γ δ w]
  {c : Cfg} {S : Nat → I} {r : R} {rows : List (α × δ)} {dv : Vector (α × δ) w} {more : Nat → Prop}

/-- **C16**, zips of any arity, whose first iterator stands at position `p`. -/
theorem C16_zip [DecidablePred more]
    (hd : Driver c S (rows.map Prod.fst) (dv.map Prod.fst) more) (hw : 0 < w)
    (hr : LawfulRest.Rep c r (rows.map Prod.snd) (dv.map Prod.snd)) (hu : rows.length < c.usize)
    (p : Nat) (hp : p ≤ rows.length) :
    SIMDZippedIterator.len c (⟨S p, r⟩ : Zip I R) = ok (rows.length / w) ∧
    ∃ vs z, ZRuns c (⟨S p, r⟩ : Zip I R) vs (ok z) ∧
      vs.length = (rows.length - p) / w -
        (if (rows.length - p) % w = 0 ∧ p < rows.length ∧ ¬ more (rows.length - w) then 1 else 0) := by
  refine ⟨by have := hd.len p; simp only [List.length_map] at this; exact this, ?_⟩
  obtain ⟨n, hz, hm, hc, hlast⟩ := zip_runs_more hd hw hr hu p hp
  refine ⟨_, _, hz, ?_⟩
  obtain ⟨h1, h2, h3, h4⟩ := Driver.count_cases hw hc
  rw [Driver.count, List.length_drop] at hc
  rw [List.length_drop] at h1 h2 h3 h4
  rw [List.length_map, List.length_take, fullWindows_length, List.length_drop, Nat.min_eq_left h1]
  have hd := Nat.div_add_mod (rows.length - p) w
  rw [Nat.mul_comm] at hd
  by_cases hi : (rows.length - p) % w = 0 ∧ p < rows.length ∧ ¬ more (rows.length - w)
  · rw [if_pos hi]
    rcases hc with hc | hc
    · exfalso
      rw [← hc] at hd
      have h0 : 0 < n := by
        rcases Nat.eq_zero_or_pos n with h0 | h0
        · rw [h0, Nat.zero_mul] at hd; omega
        · exact h0
      have := hlast h0
      rw [show p + n * w = rows.length by omega] at this
      exact hi.2.2 this
    · rw [← hc.2, Nat.add_sub_cancel]
  · rw [if_neg hi, Nat.sub_zero]
    rcases hc with hc | hc
    · exact hc
    · exfalso
      rw [← hc.2, Nat.succ_mul] at hd
      apply hi
      refine ⟨hc.1, by omega, fun hmore => hm ?_⟩
      rwa [show p + n * w = rows.length - w by omega]

end
end Faster
