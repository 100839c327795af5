import Verif.Props.FillAt
import Verif.Props.AdapterTrace
import Verif.Props.StrideTrace
import Verif.Props.LenAt
/-
C13, C14, C16: `end` and `len` at every position of slices, strided iterators, adapters, and of
the maps of any iterator.
-/
namespace Faster
open Res SIMDSized SIMDIterable SIMDIterator

theorem badAccess_ub {c : Cfg} {X : Type} : (badAccess c : Res X) = ub ↔ c.debug = false := by
  rw [badAccess]
  cases c.debug <;> simp

theorem badAccess_not_ok {c : Cfg} {X : Type} (x : X) : (badAccess c : Res X) ≠ ok x := by
  rw [badAccess]
  cases c.debug <;> simp

section
variable {A α β σ : Type} {w w' : Nat} [SIMDSized A] [SIMDArray A α w] [Packable α] [Packable β]

omit [Packable α] in
/-- **C13**, slices: `end` has undefined behaviour exactly in release builds, at a position inside of
a slice which is not longer than a vector. -/
theorem C13_end_ub_iff {c : Cfg} {a : A} {l : List α} (h : Represents c a l) (p : Nat) (d : Vector α w)
    (hu : l.length + w < c.usize) :
    end_ c (⟨p, a, d⟩ : SIMDIter A α w) = ub ↔ c.debug = false ∧ 0 < p ∧ p < l.length ∧ l.length ≤ w := by
  rw [simdIter_end_exact h p d hu]
  by_cases h1 : l.length ≤ p
  · rw [if_pos h1]
    exact iff_of_false (by simp) (by omega)
  rw [if_neg h1]
  by_cases h2 : w < l.length - p
  · rw [if_pos h2]
    exact iff_of_false (by simp) (by omega)
  rw [if_neg h2]
  by_cases h3 : 0 < p ∧ l.length ≤ w
  · rw [if_pos h3, badAccess_ub]
    exact ⟨fun e => ⟨e, h3.1, by omega, h3.2⟩, And.left⟩
  · rw [if_neg h3]
    exact iff_of_false (by simp) (fun e => h3 ⟨e.2.1, e.2.2.2⟩)

omit [Packable α] in
/-- **C14**, slices: where at least one and at most a vector of elements is left, `end` delivers them
as the property says exactly where the slice is longer than a vector or nothing has been taken from
it. -/
theorem C14_iff {c : Cfg} {a : A} {l : List α} (h : Represents c a l) (p : Nat) (d : Vector α w)
    (hu : l.length + w < c.usize) (h1 : p < l.length) (h2 : l.length ≤ p + w) :
    (∃ it', end_ c (⟨p, a, d⟩ : SIMDIter A α w) =
      ok (some (padFront d (l.drop p), w - (l.length - p)), it')) ↔ p = 0 ∨ w < l.length := by
  rw [simdIter_end_exact h p d hu, if_neg (by omega), if_neg (by omega)]
  by_cases h3 : 0 < p ∧ l.length ≤ w
  · rw [if_pos h3]
    exact iff_of_false (by rintro ⟨_, e⟩; exact badAccess_not_ok _ e) (by omega)
  · rw [if_neg h3]
    exact iff_of_true ⟨_, rfl⟩ (by omega)

/-- `end` of a strided iterator at every position. -/
theorem stride_end_exact {c : Cfg} {a : A} {l : List α} (h : Represents c a l) {s k : Nat}
    (hk : k < s) (d : Vector α w) (hw : 0 < w) (hu : l.length + s * (w + 1) < c.usize) (p : Nat) :
    end_ c (⟨a, k + s * p, k, s, d⟩ : PackedStride A α w) =
      if l.length / s ≤ p then ok (none, ⟨a, k + s * p, k, s, d⟩)
      else if w < l.length / s - p then panic
      else if 0 < p ∧ l.length / s ≤ w then badAccess c
      else ok (some (padFront d ((strided s k l hk).drop p), w - (l.length / s - p)),
        ⟨a, k + s * (l.length / s), k, s, d⟩) := by
  have hs : 0 < s := by omega
  have hsl := strided_length s k l hk
  have hm := Nat.div_mul_le_self l.length s
  rw [Nat.mul_comm] at hm
  have h3 : w + 1 ≤ s * (w + 1) := Nat.le_mul_of_pos_left _ hs
  have h3' : s ≤ s * (w + 1) := Nat.le_mul_of_pos_right _ (by omega)
  have h4 := Nat.div_le_self l.length s
  have hpos : scalarPos c (⟨a, k + s * p, k, s, d⟩ : PackedStride A α w) = ok p := by
    simp only [SIMDIterable.scalarPos]
    rw [usub_ok (by omega)]
    simp only [ok_bind]
    rw [udiv_ok hs, Nat.add_sub_cancel_left, Nat.mul_div_cancel_left _ hs]
  have := blanketEnd_exact (t' := ⟨a, k + s * (l.length / s), k, s, d⟩)
    (represents_stride h hk (k + s * p) d hw hu) hpos (fun hp => ?_) (by rw [hsl]; omega)
  · rw [hsl] at this
    exact this
  · rw [hsl] at hp ⊢
    have e : s * p + s * (l.length / s - p) = s * (l.length / s) := by
      rw [← Nat.mul_add]
      congr 1
      omega
    rw [Nat.mul_comm s (l.length / s - p)] at e
    simp only [SIMDIterable.advance, PackedStride.advance]
    rw [umul_ok (by omega)]
    simp only [ok_bind]
    rw [uadd_ok (by omega)]
    simp only [ok_bind]
    rw [show k + s * p + (l.length / s - p) * s = k + s * (l.length / s) by omega]

/-- **C13**, strided iterators. -/
theorem C13_stride_ub_iff {c : Cfg} {a : A} {l : List α} (h : Represents c a l) {s k : Nat}
    (hk : k < s) (d : Vector α w) (hw : 0 < w) (hu : l.length + s * (w + 1) < c.usize) (p : Nat) :
    end_ c (⟨a, k + s * p, k, s, d⟩ : PackedStride A α w) = ub ↔
      c.debug = false ∧ 0 < p ∧ p < l.length / s ∧ l.length / s ≤ w := by
  rw [stride_end_exact h hk d hw hu p]
  by_cases h1 : l.length / s ≤ p
  · rw [if_pos h1]
    exact iff_of_false (by simp) (by omega)
  rw [if_neg h1]
  by_cases h2 : w < l.length / s - p
  · rw [if_pos h2]
    exact iff_of_false (by simp) (by omega)
  rw [if_neg h2]
  by_cases h3 : 0 < p ∧ l.length / s ≤ w
  · rw [if_pos h3, badAccess_ub]
    exact ⟨fun e => ⟨e, h3.1, by omega, h3.2⟩, And.left⟩
  · rw [if_neg h3]
    exact iff_of_false (by simp) (fun e => h3 ⟨e.2.1, e.2.2.2⟩)

/-- **C14**, strided iterators: the elements left are those of the stride. -/
theorem C14_stride_iff {c : Cfg} {a : A} {l : List α} (h : Represents c a l) {s k : Nat}
    (hk : k < s) (d : Vector α w) (hw : 0 < w) (hu : l.length + s * (w + 1) < c.usize) (p : Nat)
    (h1 : p < l.length / s) (h2 : l.length / s ≤ p + w) :
    (∃ it', end_ c (⟨a, k + s * p, k, s, d⟩ : PackedStride A α w) =
      ok (some (padFront d ((strided s k l hk).drop p), w - (l.length / s - p)), it')) ↔
      p = 0 ∨ w < l.length / s := by
  rw [stride_end_exact h hk d hw hu p, if_neg (by omega), if_neg (by omega)]
  by_cases h3 : 0 < p ∧ l.length / s ≤ w
  · rw [if_pos h3]
    exact iff_of_false (by rintro ⟨_, e⟩; exact badAccess_not_ok _ e) (by omega)
  · rw [if_neg h3]
    exact iff_of_true ⟨_, rfl⟩ (by omega)

omit [Packable α] in
/-- **C13**, adapters: undefined behaviour exactly in release builds with more than a vector of
elements in the iterator, at a position below their number. -/
theorem C13_adapter_ub_iff (c : Cfg) (d s : Vector α w) (p : Nat) (l : List α) (hw : 0 < w)
    (hu : w < c.usize) (hl : l.length < c.usize) :
    end_ c (⟨l, s, d, p⟩ : SIMDAdapter α w) = ub ↔
      c.debug = false ∧ p < l.length ∧ w < l.length := by
  rw [adapter_end_exact c d s p l hw hu hl]
  by_cases h1 : l.length ≤ p
  · rw [if_pos h1]
    exact iff_of_false (by simp) (by omega)
  rw [if_neg h1]
  by_cases h2 : l.length ≤ w
  · rw [dif_pos h2]
    refine iff_of_false ?_ (by omega)
    split <;> simp
  · rw [dif_neg h2]
    cases c.debug
    · exact iff_of_true (by simp) ⟨rfl, by omega, by omega⟩
    · exact iff_of_false (by simp) (by simp)

omit [Packable α] in
/-- **C14** for adapters: a fresh adapter hands the elements out backwards. It is as the property says
only if there is one element, or all elements are the same. -/
theorem C14_adapter_iff (c : Cfg) (d s : Vector α w) (l : List α) (hw : 0 < w) (hu : w < c.usize)
    (h1 : 0 < l.length) (h2 : l.length < w) :
    (∃ n it', end_ c (⟨l, s, d, 0⟩ : SIMDAdapter α w) = ok (some (padFront d l, n), it')) ↔
      l.reverse = l := by
  have e := adapter_end_exact c d s 0 l hw hu (by omega)
  rw [if_neg (by omega), dif_pos (by omega), if_neg (by omega)] at e
  rw [e]
  have key : backwards l d (by omega) = padFront d l ↔ l.reverse = l := by
    constructor
    · intro h
      refine List.ext_getElem (by simp) fun i hi hi' => ?_
      have hj : w - l.length + i < w := by omega
      have := congrArg (fun v => v[w - l.length + i]) h
      simp only [backwards, Vector.getElem_ofFn] at this
      rw [dif_pos (by omega), padFront_getElem _ _ _ _ (by omega), dif_neg (by omega)] at this
      rw [List.getElem_reverse]
      refine Eq.trans ?_ (this.trans ?_)
      · congr 1; omega
      · congr 1; omega
    · intro h
      ext j hj
      rw [padFront_getElem _ _ _ _ (by omega)]
      simp only [backwards, Vector.getElem_ofFn]
      by_cases h3 : j < w - l.length
      · rw [dif_neg (by omega), dif_pos h3]
        rfl
      · rw [dif_pos (by omega), dif_neg h3]
        have hi : j - (w - l.length) < l.reverse.length := by rw [List.length_reverse]; omega
        have : l.reverse[j - (w - l.length)] = l[j - (w - l.length)]'(by omega) := by
          congr 1
        rw [← this, List.getElem_reverse]
        congr 1
        omega
  constructor
  · rintro ⟨n, it', h⟩
    simp only [ok.injEq, Prod.mk.injEq, Option.some.injEq] at h
    exact key.1 h.1.1
  · intro h
    exact ⟨_, _, by rw [key.2 h]⟩

end

section
variable {I α β σ : Type} {w w' : Nat} [SIMDSized I] [SIMDIterator I α w] [Packable α] [Packable β]

/-- **C13**, maps of any iterator: undefined behaviour in `end` comes from the `end` of the iterator
or from the closure. -/
theorem C13_map_ub_iff (c : Cfg) (it : I) (st : σ) (f : FnMut σ (Vector α w) (Vector β w'))
    (hs : 0 < Packable.size β)
    (hu : ∀ v n it', end_ c it = ok (some (v, n), it') → n * Packable.size α < c.usize) :
    end_ c (simdMap it st f) = ub ↔
      end_ c it = ub ∨ ∃ v n it', end_ c it = ok (some (v, n), it') ∧ f st v = ub := by
  simp only [simdMap, SIMDIterator.end_, SIMDMap.end_]
  rcases h : SIMDIterator.end_ c it with ⟨r, it'⟩ | _ | _ | _
  · simp only [ok_bind, reduceCtorEq, false_or, ok.injEq, Prod.mk.injEq]
    rcases r with _ | ⟨v, n⟩
    · simp
    · simp only [Option.some.injEq, Prod.mk.injEq]
      rw [umul_ok (hu v n it' h), ok_bind, udiv_ok hs, ok_bind]
      rcases h2 : f st v with ⟨u, st'⟩ | _ | _ | _ <;> simp [h2]
  all_goals simp

end

section
variable {Z γ β σ : Type} {w' : Nat} [SIMDZippedIterator Z γ] [Packable β]

/-- **C13**, maps of any zip. -/
theorem C13_zip_map_ub_iff (c : Cfg) (z : Z) (st : σ) (f : FnMut σ γ (Vector β w'))
    (hs : 0 < Packable.size β)
    (hu : ∀ v n z', SIMDZippedIterator.end_ c z = ok (some (v, n), z') →
      n * SIMDZippedIterator.size z' < c.usize) :
    end_ c (zsimdMap z st f) = ub ↔
      SIMDZippedIterator.end_ c z = ub ∨
        ∃ v n z', SIMDZippedIterator.end_ c z = ok (some (v, n), z') ∧ f st v = ub := by
  simp only [zsimdMap, SIMDIterator.end_, SIMDZipMap.end_]
  rcases h : SIMDZippedIterator.end_ c z with ⟨r, z'⟩ | _ | _ | _
  · simp only [ok_bind, reduceCtorEq, false_or, ok.injEq, Prod.mk.injEq]
    rcases r with _ | ⟨v, n⟩
    · simp
    · simp only [Option.some.injEq, Prod.mk.injEq]
      rw [umul_ok (hu v n z' h), ok_bind, udiv_ok hs, ok_bind]
      rcases h2 : f st v with ⟨u, st'⟩ | _ | _ | _ <;> simp [h2]
  all_goals simp

end

section
variable {I R α γ δ : Type} {w : Nat} [SIMDSized I] [SIMDIterator I α w] [Packable α]
  [ZipRest R γ] [LawfulRest R γ δ w]
  {c : Cfg} {it it' : I} {r : R} {rows : List (α × δ)} {dv : Vector (α × δ) w}

/-- `end` of a zip over collections of the same length, at every position of the first iterator. -/
theorem zip_end_exact (p : Nat) (hpos : scalarPos c it = ok p)
    (he : end_ c it =
      if rows.length ≤ p then ok (none, it)
      else if w < rows.length - p then panic
      else if 0 < p ∧ rows.length ≤ w then badAccess c
      else ok (some (padFront (dv.map Prod.fst) ((rows.map Prod.fst).drop p),
        w - (rows.length - p)), it'))
    (hr : LawfulRest.Rep c r (rows.map Prod.snd) (dv.map Prod.snd)) (hu : w < c.usize) :
    SIMDZippedIterator.end_ c (⟨it, r⟩ : Zip I R) =
      if rows.length ≤ p then ok (none, ⟨it, r⟩)
      else if w < rows.length - p then panic
      else if 0 < p ∧ rows.length ≤ w then badAccess c
      else ok (some (packRow R (padFront dv (rows.drop p)), w - (rows.length - p)), ⟨it', r⟩) := by
  simp only [SIMDZippedIterator.end_, Zip.end_, hpos, he, ok_bind]
  by_cases h1 : rows.length ≤ p
  · simp only [if_pos h1, ok_bind]
  by_cases h2 : w < rows.length - p
  · simp only [if_neg h1, if_pos h2, panic_bind]
  by_cases h3 : 0 < p ∧ rows.length ≤ w
  · simp only [if_neg h1, if_neg h2, if_pos h3, badAccess_bind]
  · have h5 := LawfulRest.end_ok p (by simp; omega) (by simp; omega) (by simp; omega) hu hr
    simp only [List.length_map] at h5
    simp only [if_neg h1, if_neg h2, if_neg h3, ok_bind, h5, packRow]
    rw [← List.map_drop, ← List.map_drop, padFront_map _ _ _ (by simp; omega),
      padFront_map _ _ _ (by simp; omega)]

/-- **C13**, zips of slices of the same length, of any arity. -/
theorem C13_zip_ub_iff {A : Type} [SIMDSized A] [SIMDArray A α w] {a : A}
    (h : Represents c a (rows.map Prod.fst)) (p : Nat)
    (hr : LawfulRest.Rep c r (rows.map Prod.snd) (dv.map Prod.snd)) (hu : rows.length + w < c.usize) :
    SIMDZippedIterator.end_ c (⟨⟨p, a, dv.map Prod.fst⟩, r⟩ : Zip (SIMDIter A α w) R) = ub ↔
      c.debug = false ∧ 0 < p ∧ p < rows.length ∧ rows.length ≤ w := by
  have he := simdIter_end_exact h p (dv.map Prod.fst) (by simpa using hu)
  rw [List.length_map] at he
  rw [zip_end_exact p rfl he hr (by omega)]
  by_cases h1 : rows.length ≤ p
  · rw [if_pos h1]
    exact iff_of_false (by simp) (by omega)
  rw [if_neg h1]
  by_cases h2 : w < rows.length - p
  · rw [if_pos h2]
    exact iff_of_false (by simp) (by omega)
  rw [if_neg h2]
  by_cases h3 : 0 < p ∧ rows.length ≤ w
  · rw [if_pos h3, badAccess_ub]
    exact ⟨fun e => ⟨e, h3.1, by omega, h3.2⟩, And.left⟩
  · rw [if_neg h3]
    exact iff_of_false (by simp) (fun e => h3 ⟨e.2.1, e.2.2.2⟩)

/-- **C14**, zips of slices of the same length, of any arity. -/
theorem C14_zip_iff {A : Type} [SIMDSized A] [SIMDArray A α w] {a : A}
    (h : Represents c a (rows.map Prod.fst)) (p : Nat)
    (hr : LawfulRest.Rep c r (rows.map Prod.snd) (dv.map Prod.snd)) (hu : rows.length + w < c.usize)
    (h1 : p < rows.length) (h2 : rows.length ≤ p + w) :
    (∃ z', SIMDZippedIterator.end_ c (⟨⟨p, a, dv.map Prod.fst⟩, r⟩ : Zip (SIMDIter A α w) R) =
      ok (some (packRow R (padFront dv (rows.drop p)), w - (rows.length - p)), z')) ↔
      p = 0 ∨ w < rows.length := by
  have he := simdIter_end_exact h p (dv.map Prod.fst) (by simpa using hu)
  rw [List.length_map] at he
  rw [zip_end_exact p rfl he hr (by omega), if_neg (by omega), if_neg (by omega)]
  by_cases h3 : 0 < p ∧ rows.length ≤ w
  · rw [if_pos h3]
    exact iff_of_false (by rintro ⟨_, e⟩; exact badAccess_not_ok _ e) (by omega)
  · rw [if_neg h3]
    exact iff_of_true ⟨_, rfl⟩ (by omega)

end

/-! ### `len()` -/

section
variable {I R α γ δ : Type} {w : Nat} [SIMDSized I] [SIMDIterator I α w] [Packable α]
  [ZipRest R γ] [LawfulRest R γ δ w] {c : Cfg} {S : Nat → I} {more : Nat → Prop} {b : Nat}

omit [Packable α] in
/-- **C16**, every position: `len()` is the number of vectors in the whole collection, `next` will
deliver `k`. -/
theorem C16_at {l : List α} {d : Vector α w} (h : Everywhere c S l d more b) (hw : 0 < w) (p : Nat)
    (hp : p < b) (k : Nat) (hk : ∀ i, i < k → more (p + i * w)) (hk' : ¬ more (p + k * w)) :
    SIMDIterable.len c (S p) = ok (l.length / w) ∧
      ∃ vs r, Runs c (S p) vs (ok r) ∧ vs.length = k := by
  refine ⟨h.len p, ?_⟩
  by_cases hpl : p ≤ l.length
  · have hc := (h.emits_at hw p hp k hk hk').1
    have := (Driver.count_cases hw hc).1
    refine ⟨_, _, h.toDriver.runs_exact hw k p hpl hk hk', ?_⟩
    rw [List.length_take, fullWindows_length]
    omega
  · refine ⟨[], _, Runs.done (h.past_next p (by omega) hp), ?_⟩
    rcases Nat.eq_zero_or_pos k with h2 | h2
    · exact h2.symm
    · obtain ⟨h3, -⟩ := h.next_some _ (hk 0 h2)
      omega

omit [Packable α] in
/-- **C16**, slices, every position. -/
theorem C16_slice_at_iff (data : List α) (d : Vector α w) (p : Nat) (hw : 0 < w)
    (hlen : data.length + w < c.usize) (hp : p + w < c.usize) :
    (∃ vs r, Runs c (⟨p, ⟨data⟩, d⟩ : SIMDIter (Slice α w) α w) vs (ok r) ∧
      SIMDIterable.len c (⟨p, ⟨data⟩, d⟩ : SIMDIter (Slice α w) α w) = ok vs.length) ↔
    data.length < w ∨ p ≤ data.length % w := by
  obtain ⟨h1, h2⟩ := slice_visits_at data.length p hw
  obtain ⟨e, vs, r, h3, h4⟩ := C16_at (simdIter_everywhere (represents_slice (w := w) c data) d hw hlen)
    hw p (by omega) _ h1 h2
  have key : data.length / w = (data.length - p) / w ↔ data.length < w ∨ p ≤ data.length % w := by
    have hd := Nat.div_add_mod data.length w
    have hm := Nat.mod_lt data.length hw
    constructor
    · intro he
      rcases Nat.lt_or_ge data.length w with h | h
      · exact Or.inl h
      right
      have h5 := Nat.div_pos h hw
      have h6 : p < data.length := by
        rcases Nat.lt_or_ge p data.length with h7 | h7
        · exact h7
        · rw [Nat.sub_eq_zero_of_le h7, Nat.zero_div] at he
          omega
      have h8 := Nat.div_mul_le_self (data.length - p) w
      rw [← he, Nat.mul_comm] at h8
      omega
    · rintro (h | h)
      · rw [Nat.div_eq_of_lt h, Nat.div_eq_of_lt (by omega)]
      · symm
        rw [Nat.div_eq_iff hw]
        rw [Nat.mul_comm] at hd
        omega
  rw [← key]
  constructor
  · rintro ⟨vs', r', h5, h6⟩
    rw [show SIMDIterable.len c (⟨p, ⟨data⟩, d⟩ : SIMDIter (Slice α w) α w) = _ from e,
      ok.injEq] at h6
    rw [h6, (Runs.unique h5 h3).1, h4]
  · intro h5
    refine ⟨vs, r, h3, ?_⟩
    rw [h4, ← h5]
    exact e

/-- **C16**, strided iterators, every position. -/
theorem C16_stride_at (data : List α) (d : Vector α w) {s i : Nat} (hi : i < s) (p : Nat) (hw : 0 < w)
    (hu : data.length + s * (w + 1) < c.usize) (hp : s * (p + 1) + s * w ≤ c.usize) :
    SIMDIterable.len c (⟨⟨data⟩, i + s * p, i, s, d⟩ : PackedStride (Slice α w) α w) =
        ok (data.length / s / w) ∧
      ∃ vs r, Runs c (⟨⟨data⟩, i + s * p, i, s, d⟩ : PackedStride (Slice α w) α w) vs (ok r) ∧
        vs.length = (data.length - 1 - i - s * p) / s / w := by
  obtain ⟨h1, h2⟩ := stride_visits_at (len := data.length) p hi hw
  have := C16_at (stride_everywhere (represents_slice (w := w) c data) hi d hw hu) hw p
    (by rw [Nat.lt_iff_add_one_le, Nat.le_div_iff_mul_le (by omega), Nat.mul_comm]; omega) _ h1 h2
  rw [strided_length] at this
  exact this

/-- **C16**, zips of any arity, every position of the first iterator. -/
theorem C16_zip_at {r : R} {rows : List (α × δ)} {dv : Vector (α × δ) w}
    (h : Everywhere c S (rows.map Prod.fst) (dv.map Prod.fst) more b) (hw : 0 < w)
    (hr : LawfulRest.Rep c r (rows.map Prod.snd) (dv.map Prod.snd)) (hu : rows.length + w < c.usize)
    (p : Nat) (hp : p < b) (k : Nat) (hk : ∀ i, i < k → more (p + i * w))
    (hk' : ¬ more (p + k * w)) :
    SIMDZippedIterator.len c (⟨S p, r⟩ : Zip I R) = ok (rows.length / w) ∧
      ∃ vs z, ZRuns c (⟨S p, r⟩ : Zip I R) vs (ok z) ∧ vs.length = k := by
  have hl := h.len p
  rw [List.length_map] at hl
  refine ⟨hl, ?_⟩
  by_cases hpl : p ≤ rows.length
  · have hc := (zip_emits_at h hw hr hu p hp k hk hk').1
    have := (Driver.count_cases hw hc).1
    refine ⟨_, _, zip_runs_exact h.toDriver hw hr (by omega) k p hpl hk hk', ?_⟩
    rw [List.length_map, List.length_take, fullWindows_length]
    omega
  · have hp1 : (rows.map Prod.fst).length < p := by rw [List.length_map]; omega
    refine ⟨[], ⟨S p, r⟩, ZRuns.done ?_, ?_⟩
    · simp only [SIMDZippedIterator.next, Zip.next, h.past_pos p hp1 hp, h.past_next p hp1 hp, ok_bind]
    · rcases Nat.eq_zero_or_pos k with h2 | h2
      · exact h2.symm
      · obtain ⟨h3, -⟩ := h.next_some _ (hk 0 h2)
        rw [List.length_map] at h3
        omega

end

/-- A strided iterator at element 1 of 2, in release mode. -/
example : (end_ release64 (⟨⟨[1#8, 2, 3, 4]⟩, 0 + 2 * 1, 0, 2, Vector.replicate 4 0⟩ :
    PackedStride (Slice (BitVec 8) 4) (BitVec 8) 4)).bind (fun r => ok r.1) = ub := by decide +kernel

/-- An adapter hands its rest out backwards. -/
example : (end_ release64 (⟨[1#8, 2], Vector.replicate 4 0, Vector.replicate 4 0, 0⟩ :
    SIMDAdapter (BitVec 8) 4)).bind (fun r => ok (r.1.map Prod.fst)) = ok (some #v[0, 0, 2, 1]) := by
  decide +kernel

end Faster
