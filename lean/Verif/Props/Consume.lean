import Verif.Props.Exhaustion
import Verif.Props.Unwind
/-
C142: `simd_do_each` and `simd_reduce` use up the iterator. The documentation of
`simd_do_each` says that it does not modify it (src/iters.rs:94-104, src/zip.rs:146-156).
-/
namespace Faster
open Res SIMDSized SIMDIterable SIMDIterator

section
variable {I α : Type} {w : Nat} [SIMDSized I] [SIMDIterator I α w]
variable {c : Cfg} {S : Nat → I} {l : List α} {d : Vector α w} {more : Nat → Prop}

/-- An iterator at the end of its elements is exhausted. -/
theorem Driver.exhausted (h : Driver c S l d more) (hm : ¬ more l.length) :
    Exhausted c (S l.length) :=
  ⟨h.next_none _ (Nat.le_refl _) hm, by
    rw [h.end_ _ (Nat.le_refl _) hm (fun h => absurd h (Nat.lt_irrefl _)),
      if_neg (Nat.lt_irrefl _)]⟩

theorem Driver.not_more (h : Driver c S l d more) (hw : 0 < w) : ¬ more l.length := by
  intro hm
  obtain ⟨h1, -⟩ := h.next_some _ hm
  omega

/-- **C142**: `simd_do_each` from any position calls the closure on the remaining
elements and leaves the iterator at the end. -/
theorem C142_do_each {σ : Type} (h : Driver c S l d more) (fuel p : Nat) (st : σ)
    (f : FnMut σ (Vector α w) Unit) (hw : 0 < w) (hp : p ≤ l.length)
    (hs : p = 0 ∨ p = l.length ∨ w < l.length) (hfuel : (l.length - p) / w < fuel) :
    simdDoEach c fuel (S p) st f = (do
      let (_, st') ← callAll f st (calls w d (l.drop p))
      ok (S l.length, st')) := by
  obtain ⟨n, hc, he⟩ := h.emits_from hw p hp hs
  obtain ⟨h1, -⟩ := Driver.count_cases hw hc
  rw [List.length_drop] at h1
  rw [simdDoEach_emits f he fuel st (by
      rw [List.length_take, fullWindows_length, List.length_drop]; omega),
    withTail_tailFrom hw d _ hc]

/-- **C142**: so does `simd_reduce`. -/
theorem C142_reduce {A σ : Type} (h : Driver c S l d more) (fuel p : Nat) (start : A) (st : σ)
    (f : σ → A → Vector α w → Res (A × σ)) (hw : 0 < w) (hp : p ≤ l.length)
    (hs : p = 0 ∨ p = l.length ∨ w < l.length) (hfuel : (l.length - p) / w < fuel) :
    simdReduce c fuel (S p) start st f = (do
      let (acc, st') ← (calls w d (l.drop p)).foldlM (fun (acc, st) v => f st acc v) (start, st)
      ok (S l.length, acc, st')) := by
  obtain ⟨n, hc, he⟩ := h.emits_from hw p hp hs
  obtain ⟨h1, -⟩ := Driver.count_cases hw hc
  rw [List.length_drop] at h1
  rw [simdReduce_emits f he fuel start st (by
      rw [List.length_take, fullWindows_length, List.length_drop]; omega),
    withTail_tailFrom hw d _ hc]

/-- **C142**: a second `simd_do_each`, or `simd_reduce`, of the same iterator does not
call its closure. -/
theorem C142_again {σ τ A : Type} (h : Driver c S l d more) (fuel fuel' p : Nat) (st st' : σ) (t : τ)
    (f : FnMut σ (Vector α w) Unit) (g : FnMut τ (Vector α w) Unit) (start : A)
    (k : τ → A → Vector α w → Res (A × τ)) (it : I) (hw : 0 < w)
    (hp : p ≤ l.length) (hs : p = 0 ∨ p = l.length ∨ w < l.length)
    (hfuel : (l.length - p) / w < fuel) (h1 : simdDoEach c fuel (S p) st f = ok (it, st')) :
    simdDoEach c (fuel' + 1) it t g = ok (it, t) ∧
      simdReduce c (fuel' + 1) it start t k = ok (it, start, t) := by
  rw [C142_do_each h fuel p st f hw hp hs hfuel] at h1
  obtain ⟨r, -, h2⟩ := bind_eq_ok.mp h1
  simp only [ok.injEq, Prod.mk.injEq] at h2
  rw [← h2.1]
  have he := h.exhausted (h.not_more hw)
  exact ⟨C15_do_each c fuel' _ t g he, C15_reduce c fuel' _ start t k he⟩

/-- **C142**: `simd_do_each` leaves the position unmodified exactly if no elements remained. -/
theorem C142_unmodified_iff {σ : Type} (h : Driver c S l d more) (fuel p : Nat) (st st' : σ)
    (f : FnMut σ (Vector α w) Unit) (it : I) (hw : 0 < w) (hp : p ≤ l.length)
    (hs : p = 0 ∨ p = l.length ∨ w < l.length) (hfuel : (l.length - p) / w < fuel)
    (h1 : simdDoEach c fuel (S p) st f = ok (it, st')) :
    scalarPos c it = scalarPos c (S p) ↔ p = l.length := by
  rw [C142_do_each h fuel p st f hw hp hs hfuel] at h1
  obtain ⟨r, -, h2⟩ := bind_eq_ok.mp h1
  simp only [ok.injEq, Prod.mk.injEq] at h2
  rw [← h2.1, h.pos _ (Nat.le_refl _), h.pos _ hp]
  simp only [ok.injEq]
  exact eq_comm

end

/-- **C142** as documented is false: the second pass sees no elements. -/
theorem C142_false :
    ¬ ∀ (c : Cfg) (data : List (BitVec 8)) (d : Vector (BitVec 8) 4)
      (it : SIMDIter (Slice (BitVec 8) 4) (BitVec 8) 4) (log : List (Vector (BitVec 8) 4)),
      data.length + 4 < c.usize →
      simdDoEach c (data.length + 1) (simdIter data d) [] (fun log v => ok ((), log ++ [v])) =
        ok (it, log) → it = simdIter data d := by
  intro h
  have := h release64 [1, 2, 3, 4] #v[0, 0, 0, 0] ⟨4, ⟨[1, 2, 3, 4]⟩, #v[0, 0, 0, 0]⟩
    [#v[1, 2, 3, 4]] (by decide) (by decide +kernel)
  have := congrArg SIMDIter.position this
  cases this

/-! ### Zips -/

section
variable {I R α ρ γ : Type} {w : Nat} [SIMDSized I] [SIMDIterator I α w] [Packable α]
  [ZipRest R γ] [LawfulRest R γ ρ w]
variable {c : Cfg} {S : Nat → I} {more : Nat → Prop} {r : R} {rows : List (α × ρ)}
  {dv : Vector (α × ρ) w}

/-- **C142** for zips: after a `simd_do_each` the first iterator is at its end, and a
second one does not call its closure. -/
theorem C142_zip_again {σ τ : Type} (hd : Driver c S (rows.map Prod.fst) (dv.map Prod.fst) more)
    (hw : 0 < w) (hr : LawfulRest.Rep c r (rows.map Prod.snd) (dv.map Prod.snd))
    (hu : rows.length + w < c.usize) (fuel fuel' : Nat) (st st' : σ) (t : τ)
    (f : FnMut σ (Vector α w × γ) Unit) (g : FnMut τ (Vector α w × γ) Unit) (z : Zip I R)
    (hfuel : rows.length / w < fuel)
    (h1 : (do
      let z ← zip c (S 0) r
      zsimdDoEach c fuel z st f) = ok (z, st')) :
    z = ⟨S rows.length, r⟩ ∧ zsimdDoEach c (fuel' + 1) z t g = ok (z, t) := by
  rw [zip_do_each hd hw hr hu fuel st f hfuel] at h1
  obtain ⟨q, -, h2⟩ := bind_eq_ok.mp h1
  simp only [ok.injEq, Prod.mk.injEq] at h2
  rw [← h2.1]
  have he := hd.exhausted (hd.not_more hw)
  have hp := hd.pos _ (Nat.le_refl _)
  rw [List.length_map] at he hp
  exact ⟨rfl, C15_zip_do_each c fuel' _ t g (C15_zip c _ _ he hp)⟩

end

/-! ### Non-vacuity -/

/-- Two passes over one slice iterator, the first from position 1: the second logs nothing. -/
example : (do
    let (it, log) ← simdDoEach release64 9 (⟨1, ⟨[1, 2, 3, 4, 5, 6]⟩, #v[0, 0, 0, 0]⟩ :
      SIMDIter (Slice (BitVec 8) 4) (BitVec 8) 4) [] (fun log v => ok ((), log ++ [v]))
    let (_, log') ← simdDoEach release64 9 it ([] : List (Vector (BitVec 8) 4))
      (fun log v => ok ((), log ++ [v]))
    ok (log, log')) = ok ([#v[2, 3, 4, 5], #v[0, 0, 0, 6]], []) := by decide +kernel

/-- The hypotheses of the theorems hold of slices and of strided iterators. -/
example (c : Cfg) (data : List (BitVec 8)) (d : Vector (BitVec 8) 4) (p : Nat)
    (hp : p ≤ data.length) (h4 : 4 < data.length) (hu : data.length + 4 < c.usize) :
    simdDoEach c (data.length + 1) (⟨p, ⟨data⟩, d⟩ : SIMDIter (Slice (BitVec 8) 4) (BitVec 8) 4) ()
        (fun _ _ => ok ((), ())) = (do
      let (_, st') ← callAll (fun _ _ => ok ((), ())) () (calls 4 d (data.drop p))
      ok (⟨data.length, ⟨data⟩, d⟩, st')) :=
  C142_do_each (simdIter_driver (represents_slice c data) d (by decide) hu) _ p () _ (by decide) hp
    (.inr (.inr h4)) (by omega)

example (c : Cfg) (data : List (BitVec 8)) (d : Vector (BitVec 8) 4)
    (hu : data.length + 2 * (4 + 1) < c.usize) :
    Driver c (fun p => (⟨⟨data⟩, 1 + 2 * p, 1, 2, d⟩ : PackedStride (Slice (BitVec 8) 4) (BitVec 8) 4))
      (strided 2 1 data (by decide)) d (fun p => 1 + 2 * (p + 4) < data.length) :=
  stride_driver (represents_slice c data) (by decide) d (by decide) hu

end Faster
