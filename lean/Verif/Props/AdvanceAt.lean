import Verif.Props.AgainAt
import Verif.Props.Finalize
/-
C34: what `advance` and `finalize` do at every position of slices and strided iterators, of their
maps, and of zips of any arity.
-/
namespace Faster
open Res SIMDSized SIMDIterable SIMDIterator

/-- An iterator with the states `S p` which `advance` moves between the positions below `b`: by the
`usize` difference of the two positions, which for a position further in front exists in release
builds only. -/
structure Movable {I α : Type} {w : Nat} [SIMDSized I] [SIMDIterable I α w] (c : Cfg) (S : Nat → I)
    (b : Nat) : Prop where
  reach : ∀ p q, p < b → q < b → (p ≤ q ∨ c.debug = false) →
    ∃ k, usub c q p = ok k ∧ advance c (S p) k = ok (S q)

/-- Slices, and iterators over anything else. -/
theorem simdIter_moves {A α : Type} {w : Nat} [SIMDSized A] [SIMDArray A α w] (c : Cfg) (a : A)
    (d : Vector α w) : Movable c (fun p => (⟨p, a, d⟩ : SIMDIter A α w)) (c.usize - w) where
  reach p q hp hq h := by
    by_cases h1 : p ≤ q
    · refine ⟨_, usub_ok h1, ?_⟩
      simp only [SIMDIterable.advance, SIMDIter.advance]
      rw [uadd_ok (by omega), show p + (q - p) = q by omega]
      rfl
    · have hd := h.resolve_left h1
      refine ⟨c.usize + q - p, ?_, ?_⟩
      · rw [usub, if_neg h1, if_neg (by simp [hd]), Nat.mod_eq_of_lt (by omega)]
      · simp only [SIMDIterable.advance, SIMDIter.advance]
        rw [uadd_release hd, show p + (c.usize + q - p) = q + c.usize by omega, Nat.add_mod_right,
          Nat.mod_eq_of_lt (by omega)]
        rfl

/-- Strided iterators. -/
theorem stride_moves {A α : Type} {w : Nat} [SIMDSized A] [SIMDArray A α w] [Packable α] (c : Cfg)
    (a : A) {s k : Nat} (hk : k < s) (d : Vector α w) (hw : 0 < w) :
    Movable c (fun p => (⟨a, k + s * p, k, s, d⟩ : PackedStride A α w)) ((c.usize - s * w) / s) where
  reach p q hp hq h := by
    have hs : 0 < s := by omega
    have hsw : s ≤ s * w := Nat.le_mul_of_pos_right s hw
    have hb : ∀ x, x < (c.usize - s * w) / s → k + s * x < c.usize := by
      intro x hx
      rw [Nat.lt_div_iff_mul_lt hs, Nat.mul_comm] at hx
      omega
    have hle : ∀ x, x ≤ s * x := fun x => Nat.le_mul_of_pos_left x hs
    have hp' := hb p hp
    have hq' := hb q hq
    have := hle p
    have := hle q
    by_cases h1 : p ≤ q
    · have e : s * q = s * p + (q - p) * s := by
        rw [Nat.mul_comm (q - p), ← Nat.mul_add, show p + (q - p) = q by omega]
      refine ⟨_, usub_ok h1, ?_⟩
      simp only [SIMDIterable.advance, PackedStride.advance]
      rw [umul_ok (by omega)]
      simp only [ok_bind]
      rw [uadd_ok (by omega), show k + s * p + (q - p) * s = k + s * q by omega]
      rfl
    · have hd := h.resolve_left h1
      refine ⟨c.usize + q - p, ?_, ?_⟩
      · rw [usub, if_neg h1, if_neg (by simp [hd]), Nat.mod_eq_of_lt (by omega)]
      · simp only [SIMDIterable.advance, PackedStride.advance]
        rw [umul_release hd]
        simp only [ok_bind]
        rw [uadd_release hd, Nat.add_mod_mod,
          show k + s * p + (c.usize + q - p) * s = k + s * q + c.usize * s by
            have e : s * p + (c.usize + q - p) * s = s * q + c.usize * s := by
              rw [Nat.mul_comm _ s, ← Nat.mul_add, show p + (c.usize + q - p) = q + c.usize by omega,
                Nat.mul_add, Nat.mul_comm s c.usize]
            omega,
          Nat.add_mul_mod_self_left, Nat.mod_eq_of_lt hq']
        rfl

section
variable {I α β σ : Type} {w w' : Nat} [SIMDSized I] [SIMDIterator I α w] [Packable α] [Packable β]
  {c : Cfg} {S : Nat → I} {l : List α} {d : Vector α w} {more : Nat → Prop} {b : Nat}

omit [Packable α] in
theorem Movable.advance (h : Movable c S b) (p k : Nat) (hk : p + k < b) :
    advance c (S p) k = ok (S (p + k)) := by
  obtain ⟨k', h1, h2⟩ := h.reach p (p + k) (by omega) hk (Or.inl (by omega))
  rw [usub_ok (by omega)] at h1
  cases h1
  rwa [Nat.add_sub_cancel_left] at h2

omit [Packable α] in
/-- **C34**: after `advance(k)` at every position, a pass delivers what it delivers for the collection
without the first `p + k` elements. `end` fails at the positions where it always does. -/
theorem C34_advance_at (h : Everywhere c S l d more b) (hm : Movable c S b) (hw : 0 < w) (p k : Nat)
    (hk : p + k < b) (n : Nat) (hn : ∀ i, i < n → more (p + k + i * w)) (hn' : ¬ more (p + k + n * w)) :
    advance c (S p) k = ok (S (p + k)) ∧ scalarPos c (S (p + k)) = ok (p + k) ∧
      Driver.count w (l.drop (p + k)) n ∧
      Emits c (S (p + k)) ((fullWindows w (l.drop (p + k))).take n)
        (if Stuck w (p + k) l.length then badAccess c
          else ok (tailFrom d (l.drop (p + k)) n, S (max (p + k) l.length))) :=
  ⟨hm.advance p k hk, h.pos_at _ hk, h.emits_at hw (p + k) hk n hn hn'⟩

/-- **C34**, maps with any closure: `advance(k)` moves the iterator below and keeps the closure; the
closure is then called on what is left. -/
theorem C34_map_advance_at (h : Everywhere c S l d more b) (hm : Movable c S b) (hw : 0 < w) (p k : Nat)
    (hk : p + k < b) (st : σ) (f : FnMut σ (Vector α w) (Vector β w')) (n : Nat)
    (hn : ∀ i, i < n → more (p + k + i * w)) (hn' : ¬ more (p + k + n * w)) :
    let m (q : Nat) : SIMDMap I σ α w β w' := ⟨S q, st, f⟩
    advance c (m p) k = ok (m (p + k)) ∧ scalarPos c (m (p + k)) = ok (p + k) ∧
      ∃ r, Runs c (m (p + k)) (mapRun f st ((fullWindows w (l.drop (p + k))).take n)).1 r := by
  intro m
  obtain ⟨-, r, hr, -⟩ := h.emits_at hw (p + k) hk n hn hn'
  refine ⟨?_, h.pos_at _ hk, _, simdMap_runs f hr st⟩
  simp only [m, SIMDIterable.advance, hm.advance p k hk, ok_bind]

omit [Packable α] in
/-- **C34**: `finalize` of slices and strided iterators at every position: to the end, from behind it
back to it in release builds, a panic in debug builds. -/
theorem C34_finalize_at (h : Everywhere c S l d more b) (hm : Movable c S b) (p : Nat) (hp : p < b)
    (hb : l.length < b) (hl : scalarLen c (S p) = ok l.length) :
    finalize c (S p) = if l.length < p ∧ c.debug = true then panic else ok (S l.length) := by
  simp only [finalize, hl, h.pos_at p hp, ok_bind]
  by_cases h1 : l.length < p ∧ c.debug = true
  · rw [if_pos h1, usub, if_neg (by omega), if_pos h1.2]
    rfl
  · rw [if_neg h1]
    obtain ⟨k, h2, h3⟩ := hm.reach p l.length hp hb (by
      rcases Nat.lt_or_ge l.length p with h4 | h4
      · exact Or.inr (by simpa using fun h5 => h1 ⟨h4, h5⟩)
      · exact Or.inl h4)
    rw [h2]
    exact h3

omit [Packable α] in
/-- Nothing is delivered afterwards. -/
theorem C34_finalize_exhausted (h : Everywhere c S l d more b) (hw : 0 < w) :
    Exhausted c (S l.length) :=
  h.toDriver.exhausted (h.toDriver.not_more hw)

omit [Packable α] in
/-- **C34**, maps: `finalize` at every position moves to the element whose number is the number of
vectors. -/
theorem C34_map_finalize_at (h : Everywhere c S l d more b) (hm : Movable c S b) (st : σ)
    (f : FnMut σ (Vector α w) (Vector β w')) (p : Nat) (hp : p < b) (hb : l.length < b) :
    finalize c (⟨S p, st, f⟩ : SIMDMap I σ α w β w') =
      if l.length / w < p ∧ c.debug = true then panic else ok ⟨S (l.length / w), st, f⟩ := by
  have hd := Nat.div_le_self l.length w
  have h0 : scalarLen c (⟨S p, st, f⟩ : SIMDMap I σ α w β w') = ok (l.length / w) := h.len p
  have h0' : scalarPos c (⟨S p, st, f⟩ : SIMDMap I σ α w β w') = ok p := h.pos_at p hp
  simp only [finalize, h0, h0', ok_bind]
  by_cases h1 : l.length / w < p ∧ c.debug = true
  · rw [if_pos h1, usub, if_neg (by omega), if_pos h1.2]
    rfl
  · rw [if_neg h1]
    obtain ⟨k, h2, h3⟩ := hm.reach p (l.length / w) hp (by omega) (by
      rcases Nat.lt_or_ge (l.length / w) p with h4 | h4
      · exact Or.inr (by simpa using fun h5 => h1 ⟨h4, h5⟩)
      · exact Or.inl h4)
    rw [h2]
    simp only [ok_bind, SIMDIterable.advance, h3]

/-- What a map delivers, it takes from the iterator below: it is exhausted exactly if that is. -/
theorem map_exhausted_iff {it : I} (st : σ) (f : FnMut σ (Vector α w) (Vector β w')) :
    Exhausted c (⟨it, st, f⟩ : SIMDMap I σ α w β w') ↔ Exhausted c it := by
  constructor
  · rintro ⟨h1, h2⟩
    simp only [SIMDIterable.next, SIMDMap.next] at h1
    simp only [SIMDIterator.end_, SIMDMap.end_] at h2
    obtain ⟨⟨r, i⟩, h3, h1⟩ := bind_eq_ok.1 h1
    obtain ⟨⟨r', i'⟩, h4, h2⟩ := bind_eq_ok.1 h2
    refine ⟨?_, ?_⟩
    · cases r with
      | none => simp only [ok.injEq, Prod.mk.injEq, true_and, SIMDMap.mk.injEq, and_true] at h1
                rw [h3, h1]
      | some v =>
        obtain ⟨q, -, h5⟩ := bind_eq_ok.1 h1
        simp at h5
    · cases r' with
      | none => simp only [ok.injEq, Prod.mk.injEq, true_and, SIMDMap.mk.injEq, and_true] at h2
                rw [h4, h2]
      | some v =>
        obtain ⟨q, -, h5⟩ := bind_eq_ok.1 h2
        obtain ⟨q', -, h5⟩ := bind_eq_ok.1 h5
        obtain ⟨q'', -, h5⟩ := bind_eq_ok.1 h5
        simp at h5
  · rintro ⟨h1, h2⟩
    exact ⟨by simp [SIMDIterable.next, SIMDMap.next, h1],
      by simp [SIMDIterator.end_, SIMDMap.end_, h2]⟩

omit [Packable α] in
/-- The positions at which the iterator is exhausted. -/
theorem Everywhere.exhausted_iff (h : Everywhere c S l d more b) (hw : 0 < w) (p : Nat) (hp : p < b) :
    Exhausted c (S p) ↔ l.length ≤ p := by
  constructor
  · rintro ⟨h1, h2⟩
    apply Nat.le_of_not_lt
    intro hlt
    by_cases hm : more p
    · obtain ⟨h3, h4⟩ := h.next_some p hm
      rw [h4] at h1
      simp at h1
    · by_cases hst : 0 < p ∧ l.length ≤ w
      · rw [h.bad p hst.1 hlt hst.2, badAccess] at h2
        split at h2 <;> simp at h2
      · rw [h.end_ p (by omega) hm (by omega), if_pos hlt] at h2
        simp at h2
  · intro hle
    have := h.exhausted_at hw p hp
    rwa [Nat.max_eq_left hle] at this

/-- **C34**, maps of slices and of strided iterators, every position: after `finalize` nothing is
delivered exactly if the collection is empty or vectors have one lane (and the call does not
panic). -/
theorem C34_map_finalize_at_iff (h : Everywhere c S l d more b) (hm : Movable c S b) (hw : 0 < w)
    (st : σ) (f : FnMut σ (Vector α w) (Vector β w')) (p : Nat) (hp : p < b) (hb : l.length < b) :
    (∃ m, finalize c (⟨S p, st, f⟩ : SIMDMap I σ α w β w') = ok m ∧ Exhausted c m) ↔
      (l = [] ∨ w = 1) ∧ (p ≤ l.length ∨ c.debug = false) := by
  have hd := Nat.div_le_self l.length w
  have hge : l.length ≤ l.length / w ↔ l = [] ∨ w = 1 := by
    constructor
    · intro h
      rcases Nat.eq_zero_or_pos l.length with h1 | h1
      · exact Or.inl (List.eq_nil_of_length_eq_zero h1)
      · right
        rcases Nat.lt_or_ge 1 w with h2 | h2
        · have := Nat.div_lt_self h1 h2; omega
        · omega
    · rintro (rfl | rfl) <;> simp
  rw [C34_map_finalize_at h hm st f p hp hb, ← hge]
  by_cases h1 : l.length / w < p ∧ c.debug = true
  · rw [if_pos h1]
    simp only [reduceCtorEq, false_and, exists_false, false_iff]
    rintro ⟨h2, h3⟩
    rcases h3 with h3 | h3
    · omega
    · rw [h3] at h1; simp at h1
  · rw [if_neg h1]
    constructor
    · rintro ⟨m, h2, h3⟩
      cases h2
      rw [map_exhausted_iff, h.exhausted_iff hw _ (by omega)] at h3
      refine ⟨h3, ?_⟩
      by_cases h4 : p ≤ l.length
      · exact Or.inl h4
      · right
        simpa using fun h5 => h1 ⟨by omega, h5⟩
    · rintro ⟨h2, -⟩
      exact ⟨_, rfl, by rw [map_exhausted_iff, h.exhausted_iff hw _ (by omega)]; exact h2⟩

end

/-! ### Zips -/

section
variable {I R α γ δ : Type} {w : Nat} [SIMDSized I] [SIMDIterator I α w] [Packable α]
  [ZipRest R γ] [LawfulRest R γ δ w]
  {c : Cfg} {S : Nat → I} {r : R} {rows : List (α × δ)} {dv : Vector (α × δ) w} {more : Nat → Prop}
  {b : Nat}

/-- **C34**, zips of any arity: after `advance(k)` at every position, a pass delivers what it delivers
for the rows without the first `p + k`. -/
theorem C34_zip_advance_at (h : Everywhere c S (rows.map Prod.fst) (dv.map Prod.fst) more b)
    (hm : Movable c S b) (hw : 0 < w)
    (hr : LawfulRest.Rep c r (rows.map Prod.snd) (dv.map Prod.snd))
    (hu : rows.length + w < c.usize) (p k : Nat) (hk : p + k < b) (n : Nat)
    (hn : ∀ i, i < n → more (p + k + i * w)) (hn' : ¬ more (p + k + n * w)) :
    let z (q : Nat) : Zip I R := ⟨S q, r⟩
    SIMDZippedIterator.advance c (z p) k = ok (z (p + k)) ∧
      SIMDZippedIterator.scalarPos c (z (p + k)) = ok (p + k) ∧
      Driver.count w (rows.drop (p + k)) n ∧
      ZEmits c (z (p + k)) (((fullWindows w (rows.drop (p + k))).take n).map (packRow R))
        (if Stuck w (p + k) rows.length then badAccess c
          else ok ((tailFrom dv (rows.drop (p + k)) n).map fun q => (packRow R q.1, q.2),
            z (max (p + k) rows.length))) := by
  intro z
  obtain ⟨h1, h2⟩ := zip_emits_at h hw hr hu (p + k) hk n hn hn'
  refine ⟨?_, h.pos_at _ hk, h1, h2⟩
  simp only [z, SIMDZippedIterator.advance, hm.advance p k hk, ok_bind]

omit [LawfulRest R γ δ w] in
/-- **C34**, zips of any arity: `finalize` at every position moves to the row whose number is the
number of vectors. -/
theorem C34_zip_finalize_at {l : List α} {d : Vector α w} (h : Everywhere c S l d more b)
    (hm : Movable c S b) (p : Nat) (hp : p < b) (hb : l.length < b) :
    zfinalize c (⟨S p, r⟩ : Zip I R) =
      if l.length / w < p ∧ c.debug = true then panic else ok ⟨S (l.length / w), r⟩ := by
  have hd := Nat.div_le_self l.length w
  have h0 : SIMDZippedIterator.scalarLen c (⟨S p, r⟩ : Zip I R) = ok (l.length / w) := h.len p
  have h0' : SIMDZippedIterator.scalarPos c (⟨S p, r⟩ : Zip I R) = ok p := h.pos_at p hp
  simp only [zfinalize, h0, h0', ok_bind]
  by_cases h1 : l.length / w < p ∧ c.debug = true
  · rw [if_pos h1, usub, if_neg (by omega), if_pos h1.2]
    rfl
  · rw [if_neg h1]
    obtain ⟨k, h2, h3⟩ := hm.reach p (l.length / w) hp (by omega) (by
      rcases Nat.lt_or_ge (l.length / w) p with h4 | h4
      · exact Or.inr (by simpa using fun h5 => h1 ⟨h4, h5⟩)
      · exact Or.inl h4)
    rw [h2]
    simp only [ok_bind, SIMDZippedIterator.advance, h3]

end

/-- Slices and strided iterators move, and their length is that of their elements. -/
example {α : Type} [Packable α] (c : Cfg) (l : List α) (d : Vector α 4) (hu : l.length + 15 < c.usize) :
    (∃ S, Everywhere c S l d (fun p => p + 4 ≤ l.length) (c.usize - 4) ∧ Movable c S (c.usize - 4) ∧
      l.length < c.usize - 4 ∧
      ∀ p, scalarLen c (S p : SIMDIter (Slice α 4) α 4) = ok l.length) ∧
    (∃ S, Everywhere c S (strided 3 1 l (by decide)) d (fun p => 1 + 3 * (p + 4) < l.length)
        ((c.usize - 3 * 4) / 3) ∧ Movable c S ((c.usize - 3 * 4) / 3) ∧
      (strided 3 1 l (by decide)).length < (c.usize - 3 * 4) / 3 ∧
      ∀ p, scalarLen c (S p : PackedStride (Slice α 4) α 4) =
        ok (strided 3 1 l (by decide)).length) := by
  refine ⟨⟨_, simdIter_everywhere (represents_slice c l) d (by decide) (by omega),
    simdIter_moves c _ d, by omega, fun p => rfl⟩,
    ⟨_, stride_everywhere (represents_slice c l) (by decide) d (by decide) (by omega),
    stride_moves c _ (by decide) d (by decide), by rw [strided_length]; omega, fun p => ?_⟩⟩
  exact (represents_stride (represents_slice c l) (by decide) _ d (by decide) (by omega)).scalarLen

/-- A map of a strided iterator whose `finalize` leaves something to deliver. -/
example : ∃ m v m', finalize debug64 (simdMap (σ := Unit) (β := BitVec 8) (w' := 2)
      (⟨⟨[1#8, 2, 3, 4, 5, 6, 7, 8, 9]⟩, 0, 0, 2, #v[0, 0]⟩ : PackedStride (Slice (BitVec 8) 2) (BitVec 8) 2)
      () (pureFn id)) = ok m ∧ next debug64 m = ok (some v, m') ∧ v = #v[5#8, 7] :=
  ⟨_, _, _, by rfl, by rfl, by decide +kernel⟩

end Faster
