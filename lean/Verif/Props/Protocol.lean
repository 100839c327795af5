import Verif.Props.Collect
import Verif.Props.Position
import Verif.Props.Zip
/-
Parts of C02, C15 and C23 about maps and zips: which calls the consumers of a map make,
what is left after `end`, and what an accepted zip of any arity reads.
-/
namespace Faster
open Res SIMDSized SIMDIterable SIMDIterator

/-- A sequence of two computations succeeds exactly if both do. -/
theorem bind_eq_ok {α β : Type} {x : Res α} {f : α → Res β} {b : β} :
    x >>= f = ok b ↔ ∃ a, x = ok a ∧ f a = ok b := by
  cases x <;> simp

/-! ### C02: maps with a consumer -/

section Calls
variable {I α β : Type} {w w' : Nat} [SIMDSized I] [SIMDIterator I α w] [Packable α] [Packable β]

/-- Call `f`, then pass its result to `g`: what one step of a consumer of a map does. -/
def mapThen {A σ τ : Type} (f : FnMut σ (Vector α w) (Vector β w'))
    (g : τ → A → Vector β w' → Res (A × τ)) : (σ × τ) → A → Vector α w → Res (A × (σ × τ)) :=
  fun p acc v => do
    let (u, s) ← f p.1 v
    let (acc, t) ← g p.2 acc u
    ok (acc, (s, t))

theorem reduceLoop_map {A σ τ : Type} (c : Cfg) (f : FnMut σ (Vector α w) (Vector β w'))
    (g : τ → A → Vector β w' → Res (A × τ)) : ∀ (fuel : Nat) (it : I) (acc : A) (s : σ) (t : τ),
    reduceLoop c g fuel (simdMap it s f) acc t =
      reduceLoop c (mapThen f g) fuel it acc (s, t) >>= fun p =>
        ok (simdMap p.1 p.2.2.1 f, p.2.1, p.2.2.2) := by
  intro fuel
  induction fuel with
  | zero => intros; rfl
  | succ fuel ih =>
    intro it acc s t
    simp only [reduceLoop, simdMap, SIMDIterable.next, SIMDMap.next, bind_assoc]
    congr 1; funext p
    obtain ⟨r, it1⟩ := p
    cases r with
    | none => rfl
    | some v =>
      simp only [mapThen, bind_assoc, ok_bind]
      congr 1; funext q
      congr 1; funext a
      exact ih it1 a.1 q.2 a.2

/-- A map reduced: any iterator whose pass is known. -/
theorem simdReduce_map {A σ τ : Type} {c : Cfg} (f : FnMut σ (Vector α w) (Vector β w'))
    (g : τ → A → Vector β w' → Res (A × τ)) {it it' : I} {vs : List (Vector α w)}
    {t : Option (Vector α w × Nat)} (h : Emits c it vs (ok (t, it')))
    (hs : 0 < Packable.size β) (hu : ∀ p n, t = some (p, n) → n * Packable.size α < c.usize)
    (fuel : Nat) (acc : A) (s : σ) (s' : τ) (hf : vs.length < fuel) :
    simdReduce c fuel (simdMap it s f) acc s' g =
      (withTail vs t).foldlM (fun (p : A × (σ × τ)) v => mapThen f g p.2 p.1 v) (acc, (s, s')) >>=
        fun p => ok (simdMap it' p.2.1 f, p.1, p.2.2) := by
  obtain ⟨r, h1, h2⟩ := h
  simp only [simdReduce, reduceLoop_map, reduceLoop_runs (mapThen f g) h1 fuel acc (s, s') hf,
    bind_assoc, withTail, List.foldlM_append]
  congr 1; funext p
  cases r with
  | ok it1 =>
    simp only [ok_bind] at h2
    simp only [ok_bind, simdMap, SIMDIterator.end_, SIMDMap.end_, ← h2]
    rcases t with _ | ⟨v, n⟩
    · simp
    · have h3 := hu v n rfl
      simp only [ok_bind, umul_ok h3, udiv_ok hs, bind_assoc, Option.toList_some, List.map_cons,
        List.map_nil, List.foldlM_cons, List.foldlM_nil, mapThen, pure_bind]
  | _ => simp at h2

end Calls

/-- **C02** for `simd_map` followed by `simd_reduce`: the closures are called alternately,
once per vector of `calls`, each with its own state, and a panic of either ends the pass. -/
theorem C02_map_reduce {α β A σ τ : Type} [Packable α] [Packable β] {w w' : Nat} (c : Cfg)
    (fuel : Nat) (data : List α) (d : Vector α w) (start : A) (s : σ) (t : τ)
    (f : FnMut σ (Vector α w) (Vector β w')) (g : τ → A → Vector β w' → Res (A × τ))
    (hw : 0 < w) (hs : 0 < Packable.size β) (hlen : data.length + w < c.usize)
    (hvec : w * Packable.size α < c.usize) (hfuel : data.length / w < fuel) :
    simdReduce c fuel (simdMap (simdIter data d) s f) start t g =
      (calls w d data).foldlM (fun (p : A × (σ × τ)) v => do
        let (u, s) ← f p.2.1 v
        let (acc, t) ← g p.2.2 p.1 u
        ok (acc, (s, t))) (start, (s, t)) >>= fun p =>
      ok (simdMap ⟨data.length, ⟨data⟩, d⟩ p.2.1 f, p.1, p.2.2) := by
  have he := simdIter_emits (represents_slice (w := w) c data) d hw hlen
  rw [simdIter, simdReduce_map f g he hs _ fuel start s t (by rw [fullWindows_length]; omega),
    withTail_tailOf]
  · rfl
  · intro p n hpn
    obtain ⟨-, -, hn, -⟩ := tailOf_some hw hpn
    exact Nat.lt_of_le_of_lt (Nat.mul_le_mul_right _ (by omega)) hvec

theorem doEachLoop_eq_reduce {I α σ : Type} {w : Nat} [SIMDSized I] [SIMDIterator I α w] (c : Cfg)
    (g : FnMut σ (Vector α w) Unit) : ∀ (fuel : Nat) (it : I) (s : σ),
    doEachLoop c g fuel it s =
      reduceLoop c (fun s (_ : Unit) v => g s v) fuel it () s >>= fun p => ok (p.1, p.2.2) := by
  intro fuel
  induction fuel with
  | zero => intros; rfl
  | succ fuel ih =>
    intro it s
    simp only [doEachLoop, reduceLoop, bind_assoc]
    congr 1; funext p
    obtain ⟨r, it1⟩ := p
    cases r with
    | none => rfl
    | some v =>
      simp only [bind_assoc]
      congr 1; funext q
      exact ih it1 q.2

theorem simdDoEach_eq_reduce {I α σ : Type} {w : Nat} [SIMDSized I] [SIMDIterator I α w] (c : Cfg)
    (g : FnMut σ (Vector α w) Unit) (fuel : Nat) (it : I) (s : σ) :
    simdDoEach c fuel it s g =
      simdReduce c fuel it () s (fun s (_ : Unit) v => g s v) >>= fun p => ok (p.1, p.2.2) := by
  simp only [simdDoEach, simdReduce, doEachLoop_eq_reduce, bind_assoc, ok_bind]
  congr 1; funext p
  congr 1; funext q
  obtain ⟨r, it1⟩ := q
  rcases r with _ | ⟨v, n⟩
  · rfl
  · simp only [bind_assoc]; rfl

/-- **C02** for `simd_map` followed by `simd_do_each`. -/
theorem C02_map_do_each {α β σ τ : Type} [Packable α] [Packable β] {w w' : Nat} (c : Cfg)
    (fuel : Nat) (data : List α) (d : Vector α w) (s : σ) (t : τ)
    (f : FnMut σ (Vector α w) (Vector β w')) (g : FnMut τ (Vector β w') Unit)
    (hw : 0 < w) (hs : 0 < Packable.size β) (hlen : data.length + w < c.usize)
    (hvec : w * Packable.size α < c.usize) (hfuel : data.length / w < fuel) :
    simdDoEach c fuel (simdMap (simdIter data d) s f) t g =
      (calls w d data).foldlM (fun (p : Unit × (σ × τ)) v => do
        let (u, s) ← f p.2.1 v
        let (_, t) ← g p.2.2 u
        ok ((), (s, t))) ((), (s, t)) >>= fun p =>
      ok (simdMap ⟨data.length, ⟨data⟩, d⟩ p.2.1 f, p.2.2) := by
  rw [simdDoEach_eq_reduce, C02_map_reduce c fuel data d () s t f _ hw hs hlen hvec hfuel,
    bind_assoc]
  rfl

/-- Five elements in vectors of two: `f` counts its calls and adds the count, `g` logs. -/
example : (do
    let (m, log) ← simdDoEach debug64 4 (simdMap (simdIter (w := 2) [1#8, 2, 3, 4, 5] #v[9#8, 9]) 0#8
      (fun n v => ok ((v.map (· + n) : Vector (BitVec 8) 2), n + 1#8))) []
      (fun (log : List (Vector (BitVec 8) 2)) v => ok ((), log ++ [v]))
    ok (m.st, log)) = ok (3#8, [#v[1, 2], #v[4, 5], #v[11, 7]]) := by decide +kernel

/-! ### C05: the length of the result -/

/-- **C05**, length: `width` lanes for every full window, and those of the last vector after
the default lanes. `C05_collect_any_closure` says that this list is the result. -/
theorem C05_length {α β σ : Type} [Packable α] [Packable β] {w w' : Nat} (data : List α)
    (d : Vector α w) (st st' : σ) (f : FnMut σ (Vector α w) (Vector β w'))
    (outs : List (Vector β w')) (h : callAll f st (calls w d data) = ok (outs, st')) :
    (unpad ((w - data.length % w) % w * Packable.size α / Packable.size β) outs).length =
      data.length / w * w' + if data.length % w = 0 then 0 else
        w' - (w - data.length % w) % w * Packable.size α / Packable.size β := by
  have hl := callAll_length f st _ h
  unfold calls at hl
  rw [List.length_append, fullWindows_length] at hl
  by_cases h0 : data.length % w = 0
  · rw [if_pos h0] at hl ⊢
    rw [h0, Nat.sub_zero, Nat.mod_self, Nat.zero_mul, Nat.zero_div, unpad_zero, lanes_length, hl]
    simp
  · rw [if_neg h0] at hl ⊢
    rcases List.eq_nil_or_concat outs with rfl | ⟨us, u, rfl⟩
    · simp at hl
    · rw [List.concat_eq_append] at hl ⊢
      rw [unpad_concat, List.length_append, lanes_length, List.length_drop, Vector.length_toList]
      simp only [List.length_append, List.length_cons, List.length_nil] at hl
      rw [show us.length = data.length / w by omega]

/-- Seven bytes in vectors of four: one full window and three lanes. -/
example : (unpad (w := 4) ((4 - 7 % 4) % 4 * 1 / 1) [#v[1#8, 2, 3, 4], #v[0, 5, 6, 7]]).length =
    7 / 4 * 4 + (4 - 1) := by decide

/-! ### C15: maps and zips -/

/-- **C15** for maps of slices: after `end` of the map, nothing more comes out of it,
whatever the closures are. -/
theorem C15_map_end {α β σ : Type} [Packable α] [Packable β] {w w' : Nat} (c : Cfg)
    (data : List α) (d : Vector α w) (p : Nat) (hw : 0 < w) (hlen : data.length + w < c.usize)
    (hp : p + w < c.usize) (st : σ) (f : FnMut σ (Vector α w) (Vector β w'))
    (r : Option (Vector β w' × Nat)) (m : SIMDMap (SIMDIter (Slice α w) α w) σ α w β w')
    (h : end_ c (simdMap (⟨p, ⟨data⟩, d⟩ : SIMDIter (Slice α w) α w) st f) = ok (r, m)) :
    Exhausted c m := by
  have h' : SIMDMap.end_ c (⟨⟨p, ⟨data⟩, d⟩, st, f⟩ : SIMDMap (SIMDIter (Slice α w) α w) σ α w β w') =
      ok (r, m) := h
  obtain ⟨⟨q, it'⟩, h1, h2⟩ := bind_eq_ok.mp h'
  have he := C15_end_partial c data d p hw hlen hp q it' h1
  have key : m.iter = it' := by
    rcases q with _ | ⟨v, n⟩
    · simp only [ok.injEq, Prod.mk.injEq] at h2; rw [← h2.2]
    · obtain ⟨_, _, h2⟩ := bind_eq_ok.mp h2
      obtain ⟨_, _, h2⟩ := bind_eq_ok.mp h2
      obtain ⟨_, _, h2⟩ := bind_eq_ok.mp h2
      simp only [ok.injEq, Prod.mk.injEq] at h2; rw [← h2.2]
  obtain ⟨mi, ms, mf⟩ := m
  subst key
  exact C15_map c _ ms mf he

/-- **C15** for maps of iterators over arrays: a `None` of `next` leaves the map as it is. -/
theorem C15_map_next_none {A α β σ : Type} [Packable β] {w w' : Nat} [SIMDSized A] [SIMDArray A α w]
    (c : Cfg) (it : SIMDIter A α w) (st : σ) (f : FnMut σ (Vector α w) (Vector β w'))
    (m : SIMDMap (SIMDIter A α w) σ α w β w')
    (h : SIMDMap.next c (⟨it, st, f⟩ : SIMDMap (SIMDIter A α w) σ α w β w') = ok (none, m)) :
    SIMDMap.next c m = ok (none, m) := by
  obtain ⟨⟨r, it'⟩, h1, h⟩ := bind_eq_ok.mp h
  cases r with
  | none =>
    simp only [ok.injEq, Prod.mk.injEq, true_and] at h
    subst h
    simp [SIMDMap.next, C15_next_none c it it' h1]
  | some v =>
    obtain ⟨_, _, h⟩ := bind_eq_ok.mp h
    simp at h

/-- Nothing more comes out of a zip and its state does not change. -/
def ZExhausted {Z γ : Type} [SIMDZippedIterator Z γ] (c : Cfg) (z : Z) : Prop :=
  SIMDZippedIterator.next c z = ok (none, z) ∧ SIMDZippedIterator.end_ c z = ok (none, z)

/-- **C15** for zips whose first iterator is over a slice, the others being anything: after
`end` nothing more comes out. -/
theorem C15_zip_end {α R γ : Type} [Packable α] [ZipRest R γ] {w : Nat} (c : Cfg)
    (data : List α) (d : Vector α w) (p : Nat) (rest : R) (hw : 0 < w)
    (hlen : data.length + w < c.usize) (hp : p + w < c.usize) (r : Option ((Vector α w × γ) × Nat))
    (z : Zip (SIMDIter (Slice α w) α w) R)
    (h : SIMDZippedIterator.end_ c (⟨⟨p, ⟨data⟩, d⟩, rest⟩ : Zip (SIMDIter (Slice α w) α w) R) =
      ok (r, z)) : ZExhausted c z := by
  have h' : Zip.end_ c (⟨⟨p, ⟨data⟩, d⟩, rest⟩ : Zip (SIMDIter (Slice α w) α w) R) = ok (r, z) := h
  obtain ⟨_, _, h'⟩ := bind_eq_ok.mp h'
  obtain ⟨⟨q, it'⟩, h1, h⟩ := bind_eq_ok.mp h'
  have he := C15_end_partial c data d p hw hlen hp q it' h1
  have key : z = ⟨it', rest⟩ := by
    rcases q with _ | ⟨v, n⟩
    · simp only [ok.injEq, Prod.mk.injEq] at h; exact h.2.symm
    · obtain ⟨_, _, h⟩ := bind_eq_ok.mp h
      simp only [ok.injEq, Prod.mk.injEq] at h; exact h.2.symm
  subst key
  have h2 := he.1
  have h3 := he.2
  constructor
  · simp [SIMDZippedIterator.next, Zip.next, SIMDIterable.scalarPos, h2]
  · simp [SIMDZippedIterator.end_, Zip.end_, SIMDIterable.scalarPos, h3]

set_option synthInstance.maxSize 2000 in
/-- After `end` of a zip: nothing. -/
example : (do
    let z ← zip debug64 (simdIter (w := 2) [1#8, 2, 3] #v[0#8, 0]) (simdIter (w := 2) [4#8, 5, 6] #v[7#8, 7], ())
    let (_, z) ← SIMDZippedIterator.next debug64 z
    let (a, z) ← SIMDZippedIterator.end_ debug64 z
    let (b, z) ← SIMDZippedIterator.next debug64 z
    let (e, _) ← SIMDZippedIterator.end_ debug64 z
    ok (a, b, e)) = ok (some ((#v[0, 3], #v[7, 6], ()), 1), none, none) := by decide +kernel

/-! ### C23: every arity -/

/-- **C23**, `next`, for any number of slices, which may have different lengths: if `zip`
accepts them, `next` at any multiple of the width reads inside all of them. Missing: other
positions and `end` (`C23_tail_out_of_bounds`), other widths (`C23_width_out_of_bounds`). -/
theorem C23_next_partial {α : Type} [Packable α] {w : Nat} (c : Cfg) (n : Nat)
    (cols : Nat → List α) (D : Nat → Vector α w) (hw : 0 < w)
    (hu : ∀ k, (cols k).length + w < c.usize)
    (z : Zip (SIMDIter (Slice α w) α w) (PowT (SIMDIter (Slice α w) α w) n))
    (hz : zip c (simdIter (cols 0) (D 0)) (PowT.mk (fun k => simdIter (cols k) (D k)) n 1) = ok z)
    (m : Nat) (hm : m * w + w < c.usize) :
    ∃ r, SIMDZippedIterator.next c (⟨⟨m * w, ⟨cols 0⟩, D 0⟩, z.rest⟩ :
      Zip (SIMDIter (Slice α w) α w) (PowT (SIMDIter (Slice α w) α w) n)) = ok r := by
  have same : ∀ k, 1 ≤ k → k ≤ n → (cols k).length / w = (cols 0).length / w := by
    intro k h1 hk
    by_cases h : (cols k).length / w = (cols 0).length / w
    · exact h
    · rw [C22_zip_rejects_partial c n cols D hw hu k h1 hk h] at hz; cases hz
  have hzr : z.rest = PowT.mk (fun k => simdIter (cols k) (D k)) n 1 := by
    obtain ⟨_, _, hz⟩ := bind_eq_ok.mp hz
    obtain ⟨b, _, hz⟩ := bind_eq_ok.mp hz
    cases b
    · simp only [Bool.false_eq_true, if_false, ok.injEq] at hz; rw [← hz]
    · simp at hz
  by_cases hin : m * w + w ≤ (cols 0).length
  · have hfull : ∀ k, 1 ≤ k → k ≤ n → m * w + w ≤ (cols k).length := by
      intro k h1 hk
      have h2 : m + 1 ≤ (cols 0).length / w := by
        rw [Nat.le_div_iff_mul_le hw, Nat.succ_mul]; exact hin
      rw [← same k h1 hk, Nat.le_div_iff_mul_le hw, Nat.succ_mul] at h2
      exact h2
    have rest : ∀ (j i : Nat), 1 ≤ i → i + j ≤ n + 1 →
        ∃ v, ZipRest.nextAll c (PowT.mk (fun k => simdIter (cols k) (D k)) j i) (m * w) = ok v := by
      intro j
      induction j with
      | zero => intro i _ _; exact ⟨(), rfl⟩
      | succ j ih =>
        intro i h1 h2
        obtain ⟨v, hv⟩ := ih (i + 1) (by omega) (by omega)
        have hl := nextUnchecked_ok (repIter_simdIter c (cols i) 0 (D i) hw (hu i)).rep (m * w)
          (hfull i h1 (by omega)) (by have := hu i; omega)
        refine ⟨(windowAt (cols i) (m * w) w (hfull i h1 (by omega)), v), ?_⟩
        show (do
          let a ← nextUnchecked c (simdIter (cols i) (D i)) (m * w)
          let b ← ZipRest.nextAll c (PowT.mk (fun k => simdIter (cols k) (D k)) j (i + 1)) (m * w)
          ok (a, b)) = _
        rw [hv]
        simp only [simdIter] at hl ⊢
        rw [hl]; rfl
    obtain ⟨v, hv⟩ := rest n 1 (by omega) (by omega)
    have hn := simdIter_next_some (represents_slice c (cols 0)) (d := D 0) (p := m * w) hin
      (by have := hu 0; omega)
    exact ⟨(some (windowAt (cols 0) (m * w) w hin, v), ⟨⟨m * w + w, ⟨cols 0⟩, D 0⟩, z.rest⟩), by
      simp only [SIMDZippedIterator.next, Zip.next, SIMDIterable.scalarPos, ok_bind, hn, hzr, hv]⟩
  · have hn := simdIter_next_none (represents_slice c (cols 0)) (d := D 0) (p := m * w)
      (by omega) hm
    exact ⟨(none, ⟨⟨m * w, ⟨cols 0⟩, D 0⟩, z.rest⟩), by
      simp only [SIMDZippedIterator.next, Zip.next, SIMDIterable.scalarPos, ok_bind, hn]⟩

/-- Three slices of lengths 5, 4 and 5: the second vectors are read inside all of them. -/
example : (do
    let z ← zip release64 (simdIter (w := 2) [1#8, 2, 3, 4, 5] #v[0#8, 0])
      (simdIter (w := 2) [6#8, 7, 8, 9] #v[0#8, 0], simdIter (w := 2) [1#8, 1, 2, 2, 3] #v[0#8, 0], ())
    let (_, z) ← SIMDZippedIterator.next release64 z
    let (v, _) ← SIMDZippedIterator.next release64 z
    ok v) = ok (some (#v[3, 4], #v[8, 9], #v[2, 2], ())) := by decide +kernel

end Faster
