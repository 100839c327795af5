import Verif.Props.FillAllAny
/-
C34: `advance` and `finalize` of maps and zips at every position.
-/
namespace Faster
open Res SIMDSized SIMDIterable SIMDIterator

section
variable {α β σ : Type} [Packable α] [Packable β] {w w' : Nat} (c : Cfg) (data : List α)
  (d : Vector α w) (st : σ) (f : FnMut σ (Vector α w) (Vector β w'))

/-- **C34**, maps, `advance`: a pass delivers what a pass over the collection without its first
`p + k` elements delivers. -/
theorem C34_map_advance_partial (p k : Nat) (g : Vector α w → Vector β w') (hw : 0 < w)
    (hlen : data.length + w < c.usize) (hk : p + k + w < c.usize) :
    ∃ m r, advance c (⟨⟨p, ⟨data⟩, d⟩, (), pureFn g⟩ : SIMDMap (SIMDIter (Slice α w) α w) Unit α w β w')
        k = ok m ∧ scalarPos c m = ok (p + k) ∧
      Runs c m ((fullWindows w (data.drop (p + k))).map g) (ok r) := by
  refine ⟨⟨⟨p + k, ⟨data⟩, d⟩, (), pureFn g⟩, ?_⟩
  have h := simdIter_runs (represents_slice (w := w) c data) d hw hlen (p + k) hk
  have hm := simdMap_runs (pureFn g : FnMut Unit (Vector α w) (Vector β w')) h ()
  rw [mapRun_pure] at hm
  refine ⟨_, ?_, rfl, hm⟩
  simp only [SIMDIterable.advance, SIMDIter.advance]
  rw [uadd_ok (by omega)]
  rfl

omit [Packable α] in
/-- **C34**, maps, exactly what `finalize` does at every position: a map is moved to the scalar whose
number is the number of vectors. A map which stands behind it is moved back, and the debug build
panics. -/
theorem C34_map_finalize (p : Nat) (hp : p ≤ data.length) (hw : 0 < w)
    (hlen : data.length < c.usize) :
    finalize c (⟨⟨p, ⟨data⟩, d⟩, st, f⟩ : SIMDMap (SIMDIter (Slice α w) α w) σ α w β w') =
      if data.length / w < p ∧ c.debug = true then panic
      else ok ⟨⟨data.length / w, ⟨data⟩, d⟩, st, f⟩ := by
  have hd := Nat.div_le_self data.length w
  have h : scalarLen c (⟨⟨p, ⟨data⟩, d⟩, st, f⟩ : SIMDMap (SIMDIter (Slice α w) α w) σ α w β w') =
      ok (data.length / w) := C16_len c data d p hw
  simp only [finalize, h, ok_bind]
  simp only [SIMDIterable.scalarPos, ok_bind, usub]
  generalize data.length / w = L at *
  by_cases h1 : p ≤ L
  · rw [if_pos h1, if_neg (by omega)]
    simp only [ok_bind, SIMDIterable.advance, SIMDIter.advance]
    rw [uadd_ok (by omega), show p + (L - p) = L by omega]
    rfl
  · rw [if_neg h1]
    by_cases h2 : c.debug = true
    · rw [if_pos h2, if_pos ⟨by omega, h2⟩]; rfl
    · rw [if_neg h2, if_neg (fun h => h2 h.2)]
      simp only [ok_bind, SIMDIterable.advance, SIMDIter.advance, uadd]
      rw [Nat.mod_eq_of_lt (show c.usize + L - p < c.usize by omega),
        if_neg (by omega), if_neg h2,
        show p + (c.usize + L - p) = L + c.usize by omega,
        Nat.add_mod_right, Nat.mod_eq_of_lt (by omega)]
      rfl

/-- **C34**, maps: after `finalize` nothing is delivered exactly if the collection is empty or vectors
have one lane (and the call did not panic). -/
theorem C34_map_finalize_iff (p : Nat) (hp : p ≤ data.length) (hw : 0 < w)
    (hlen : data.length + w < c.usize) :
    (∃ m, finalize c (⟨⟨p, ⟨data⟩, d⟩, st, f⟩ : SIMDMap (SIMDIter (Slice α w) α w) σ α w β w') = ok m ∧
      Exhausted c m) ↔
    (data = [] ∨ w = 1) := by
  have hr := represents_slice (w := w) c data
  have hd := Nat.div_le_self data.length w
  rw [C34_map_finalize c data d st f p hp hw (by omega)]
  have hex : Exhausted c (⟨⟨data.length / w, ⟨data⟩, d⟩, st, f⟩ :
      SIMDMap (SIMDIter (Slice α w) α w) σ α w β w') ↔ data = [] ∨ w = 1 := by
    have hge : data.length ≤ data.length / w ↔ data = [] ∨ w = 1 := by
      constructor
      · intro h
        rcases Nat.eq_zero_or_pos data.length with h1 | h1
        · exact Or.inl (List.eq_nil_of_length_eq_zero h1)
        · right
          rcases Nat.lt_or_ge 1 w with h2 | h2
          · have := Nat.div_lt_self h1 h2; omega
          · omega
      · rintro (rfl | rfl) <;> simp
    rw [← hge]
    constructor
    · rintro ⟨h1, h2⟩
      apply Nat.le_of_not_lt
      intro hlt
      simp only [SIMDIterable.next, SIMDMap.next] at h1
      by_cases h3 : data.length / w + w ≤ data.length
      · have := simdIter_next_some hr (d := d) h3 (by omega)
        simp only [SIMDIterable.next] at this
        rw [this] at h1
        simp only [ok_bind] at h1
        obtain ⟨q, hq, h1⟩ := bind_eq_ok.1 h1
        simp at h1
      · have he := simdIter_end_exact hr (data.length / w) d hlen
        rw [if_neg (by omega), if_neg (by omega)] at he
        simp only [SIMDIterator.end_, SIMDMap.end_] at h2 he
        rw [he] at h2
        split at h2
        · rw [badAccess_bind, badAccess] at h2; split at h2 <;> cases h2
        · simp only [ok_bind] at h2
          obtain ⟨q, hq, h2⟩ := bind_eq_ok.1 h2
          obtain ⟨q', hq', h2⟩ := bind_eq_ok.1 h2
          obtain ⟨q'', hq'', h2⟩ := bind_eq_ok.1 h2
          simp at h2
    · intro hge
      have hn := simdIter_next_none hr (p := data.length / w) (d := d) (by omega) (by omega)
      have he := simdIter_end_exact hr (data.length / w) d hlen
      rw [if_pos hge] at he
      constructor
      · simp only [SIMDIterable.next, SIMDMap.next] at hn ⊢
        rw [hn]; rfl
      · simp only [SIMDIterator.end_, SIMDMap.end_] at he ⊢
        rw [he]; rfl
  by_cases hbad : data.length / w < p ∧ c.debug = true
  · rw [if_pos hbad]
    constructor
    · rintro ⟨m, h, -⟩; cases h
    · rintro (rfl | rfl)
      · simp at hp hbad; omega
      · simp at hbad; omega
  · rw [if_neg hbad, ← hex]
    constructor
    · rintro ⟨m, h, h'⟩; cases h; exact h'
    · intro h; exact ⟨_, rfl, h⟩

/-- **C34**, maps of exactly one vector: after `finalize`, `next` returns `None` and `end` writes to
a lane which does not exist. Safe calls only: undefined behaviour in release builds. -/
theorem C34_map_finalize_ub (p : Nat) (hp : p ≤ 1) (hw : 2 ≤ w) (h1 : data.length = w)
    (hlen : 2 * w < c.usize) :
    ∃ m, finalize c (⟨⟨p, ⟨data⟩, d⟩, st, f⟩ : SIMDMap (SIMDIter (Slice α w) α w) σ α w β w') = ok m ∧
      next c m = ok (none, m) ∧ end_ c m = badAccess c := by
  have hr := represents_slice (w := w) c data
  have hd : data.length / w = 1 := by rw [h1, Nat.div_self (by omega)]
  rw [C34_map_finalize c data d st f p (by omega) (by omega) (by omega), if_neg (by omega), hd]
  refine ⟨_, rfl, ?_, ?_⟩
  · have hn := simdIter_next_none hr (p := 1) (d := d) (by omega) (by omega)
    simp only [SIMDIterable.next, SIMDMap.next] at hn ⊢
    rw [hn]; rfl
  · have he := simdIter_end_exact hr 1 d (by omega)
    rw [if_neg (by omega), if_neg (by omega), if_pos (by omega)] at he
    simp only [SIMDIterator.end_, SIMDMap.end_] at he ⊢
    rw [he, badAccess_bind]

end

/-- Two vectors of two lanes; after the second one, a release build goes back to scalar 2 and
delivers the second vector again. -/
example : (do
    let m ← finalize release64 (⟨⟨4, ⟨[1#8, 2, 3, 4]⟩, #v[0, 0]⟩, (), pureFn (Vector.map (· + 1#8))⟩ :
      SIMDMap (SIMDIter (Slice (BitVec 8) 2) (BitVec 8) 2) Unit (BitVec 8) 2 (BitVec 8) 2)
    let (v, _) ← next release64 m
    ok v) = ok (some #v[4#8, 5]) := by decide +kernel

/-- The debug build panics in `finalize`. -/
example : (finalize debug64 (⟨⟨4, ⟨[1#8, 2, 3, 4]⟩, #v[0, 0]⟩, (), pureFn (Vector.map (· + 1#8))⟩ :
      SIMDMap (SIMDIter (Slice (BitVec 8) 2) (BitVec 8) 2) Unit (BitVec 8) 2 (BitVec 8) 2)
    >>= fun m => ok (m.iter.position)) = panic := by decide +kernel

/-- One vector: undefined behaviour in `end` after `finalize`. -/
example : (do
    let m ← finalize release64 (simdMap (simdIter (w := 2) [1#8, 2] #v[0, 0]) ()
      (pureFn (Vector.map (· + 1#8))))
    let (r, _) ← end_ release64 m
    ok r) = ub := by decide +kernel

/-- **C34**, zips, exactly what `finalize` does when the first iterator is that of a slice at any
position, whatever the further iterators are. -/
theorem C34_zip_finalize {α R γ : Type} [Packable α] {w : Nat} [ZipRest R γ] (c : Cfg)
    (data : List α) (d : Vector α w) (r : R) (p : Nat) (hp : p ≤ data.length) (hw : 0 < w)
    (hlen : data.length < c.usize) :
    zfinalize c (⟨⟨p, ⟨data⟩, d⟩, r⟩ : Zip (SIMDIter (Slice α w) α w) R) =
      if data.length / w < p ∧ c.debug = true then panic
      else ok ⟨⟨data.length / w, ⟨data⟩, d⟩, r⟩ := by
  have hd := Nat.div_le_self data.length w
  have h : SIMDZippedIterator.scalarLen c (⟨⟨p, ⟨data⟩, d⟩, r⟩ : Zip (SIMDIter (Slice α w) α w) R) =
      ok (data.length / w) := C16_len c data d p hw
  simp only [zfinalize, h, ok_bind]
  simp only [SIMDZippedIterator.scalarPos, SIMDIterable.scalarPos, ok_bind, usub]
  generalize data.length / w = L at *
  by_cases h1 : p ≤ L
  · rw [if_pos h1, if_neg (by omega)]
    simp only [ok_bind, SIMDZippedIterator.advance, SIMDIterable.advance, SIMDIter.advance]
    rw [uadd_ok (by omega), show p + (L - p) = L by omega]
    rfl
  · rw [if_neg h1]
    by_cases h2 : c.debug = true
    · rw [if_pos h2, if_pos ⟨by omega, h2⟩]; rfl
    · rw [if_neg h2, if_neg (fun h => h2 h.2)]
      simp only [ok_bind, SIMDZippedIterator.advance, SIMDIterable.advance, SIMDIter.advance, uadd]
      rw [Nat.mod_eq_of_lt (show c.usize + L - p < c.usize by omega),
        if_neg (by omega), if_neg h2,
        show p + (c.usize + L - p) = L + c.usize by omega,
        Nat.add_mod_right, Nat.mod_eq_of_lt (by omega)]
      rfl

end Faster
