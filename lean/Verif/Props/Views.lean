import Verif.Props.Position
/-
C18, C19, C20: scalar views (`unpack`) and unrolled views (`unroll`).
-/
namespace Faster
open Res SIMDSized SIMDIterable SIMDIterator

/-! ### C18 -/

/-- Call `next` of an unpacked view `k` times; the results in order. -/
def unpackRun {T α : Type} {w : Nat} [SIMDSized T] [SIMDIterable T α w] [SIMDArray T α w] (c : Cfg) :
    Nat → Unpacked T → Res (List (Option α) × Unpacked T)
  | 0, u => ok ([], u)
  | k + 1, u => do
    let (x, u) ← Unpacked.next c u
    let (xs, u) ← unpackRun c k u
    ok (x :: xs, u)

theorem unpacked_next {α : Type} {w : Nat} (c : Cfg) (data : List α) (d : Vector α w)
    (p : Nat) (hlen : data.length < c.usize) :
    Unpacked.next c (⟨⟨p, ⟨data⟩, d⟩⟩ : Unpacked (SIMDIter (Slice α w) α w)) =
      ok (data[p]?, ⟨⟨if p < data.length then p + 1 else p, ⟨data⟩, d⟩⟩) := by
  simp only [Unpacked.next, SIMDIterable.scalarPos, SIMDSized.scalarLen, ok_bind]
  by_cases hp : p < data.length
  · rw [if_pos hp, (represents_iter (represents_slice (w := w) c data) p d).loadScalarUnchecked p hp]
    simp only [ok_bind, SIMDIterable.advance, SIMDIter.advance]
    rw [uadd_ok (by omega)]
    simp [hp]
  · simp [hp]

/-- **C18.** `k` calls of `next` on `unpack()` of an iterator at position `p`
return the scalars from `p` on one by one, then `None`; `pack()` then gives an
iterator at the position after the scalars taken. -/
theorem C18_unpack {α : Type} {w : Nat} (c : Cfg) (data : List α) (d : Vector α w)
    (hlen : data.length < c.usize) : ∀ (k p : Nat),
    unpackRun c k (unpack (⟨p, ⟨data⟩, d⟩ : SIMDIter (Slice α w) α w)) =
      ok ((List.range k).map (fun i => data[p + i]?), ⟨⟨p + min k (data.length - p), ⟨data⟩, d⟩⟩) := by
  intro k
  induction k with
  | zero => intro p; simp [unpackRun, unpack]
  | succ k ih =>
    intro p
    simp only [unpack] at ih
    simp only [unpackRun, unpack]
    rw [unpacked_next c data d p hlen]
    simp only [ok_bind, List.range_succ_eq_map, List.map_cons, List.map_map, Nat.add_zero]
    by_cases hp : p < data.length
    · rw [if_pos hp, ih (p + 1)]
      simp only [ok_bind]
      refine congrArg ok (Prod.ext ?_ ?_)
      · simp only [List.cons.injEq, true_and]
        apply List.map_congr_left
        intro i _
        simp only [Function.comp]
        congr 1; omega
      · simp only [Unpacked.mk.injEq, SIMDIter.mk.injEq, and_true]
        omega
    · rw [if_neg hp, ih p]
      simp only [ok_bind]
      refine congrArg ok (Prod.ext ?_ ?_)
      · simp only [List.cons.injEq, true_and]
        apply List.map_congr_left
        intro i _
        simp only [Function.comp]
        rw [List.getElem?_eq_none (by omega), List.getElem?_eq_none (by omega)]
      · simp only [Unpacked.mk.injEq, SIMDIter.mk.injEq, and_true]
        omega

/-- **C18**: after taking `k` of the remaining scalars, the packed iterator
continues with the vectors from element `p + k` on. -/
theorem C18_pack_resumes {α : Type} {w : Nat} (c : Cfg) (data : List α) (d : Vector α w)
    (k p : Nat) (hw : 0 < w) (hlen : data.length + w < c.usize) (hk : p + k ≤ data.length) :
    ∃ xs u r, unpackRun c k (unpack (⟨p, ⟨data⟩, d⟩ : SIMDIter (Slice α w) α w)) = ok (xs, u) ∧
      xs = ((data.drop p).take k).map some ∧
      Runs c u.pack (fullWindows w (data.drop (p + k))) (ok r) := by
  refine ⟨_, _, ⟨p + k + (data.length - (p + k)) / w * w, ⟨data⟩, d⟩,
    C18_unpack c data d (by omega) k p, ?_, ?_⟩
  rotate_left 1
  · simp only [Unpacked.pack]
    rw [show p + min k (data.length - p) = p + k by omega]
    exact simdIter_runs (represents_slice (w := w) c data) d hw hlen (p + k) (by omega)
  · apply List.ext_getElem
    · simp; omega
    · intro i h1 h2
      simp

example : unpackRun debug64 3 (unpack (⟨2, ⟨[1, 2, 3, 4]⟩, #v[0, 0]⟩ :
    SIMDIter (Slice (BitVec 8) 2) (BitVec 8) 2)) =
      ok ([some 3, some 4, none], ⟨⟨4, ⟨[1, 2, 3, 4]⟩, #v[0, 0]⟩⟩) := by decide +kernel

/-! ### C19 -/

/-- `l` cut into consecutive pieces of `n` elements (the last may be shorter). -/
def chunksOf {β : Type} (n : Nat) (l : List β) : List (List β) :=
  if _h : n = 0 ∨ l = [] then [] else l.take n :: chunksOf n (l.drop n)
termination_by l.length
decreasing_by
  have h1 : l.length ≠ 0 := by
    intro h; exact _h (Or.inr (List.eq_nil_of_length_eq_zero h))
  have h2 : n ≠ 0 := fun h => _h (Or.inl h)
  simp; omega

/-- Call `next` of an unrolled view until `None`, reading each slice right after
it was returned. -/
def unrollRun {T α : Type} {w : Nat} [SIMDSized T] [SIMDIterator T α w] (c : Cfg) :
    (fuel : Nat) → Unrolled T α w → Res (List (List (Vector α w)) × Unrolled T α w)
  | 0, _ => hang
  | fuel + 1, u => do
    let (r, u) ← Unrolled.next c u
    match r with
    | none => ok ([], u)
    | some ref =>
      let chunk := ref.read u
      let (rest, u) ← unrollRun c fuel u
      ok (chunk :: rest, u)

section
variable {T α : Type} {w : Nat} [SIMDSized T] [SIMDIterator T α w]

/-- The loop of `Unrolled::next`: it takes the next `min k (number left)` vectors
and stores them from index `i` on. -/
theorem unrolled_nextLoop {c : Cfg} {it' : T} (hend : next c it' = ok (none, it'))
    {it : T} {vs : List (Vector α w)} {r : Res T} (h : Runs c it vs r) :
    ∀ (k i amt : Nat) (s : Vector (Vector α w) 8), i + k ≤ 8 → r = ok it' →
    ∃ it1 s', Unrolled.nextLoop c k i ⟨it, amt, s⟩ = ok (i + min k vs.length, ⟨it1, amt, s'⟩) ∧
      Runs c it1 (vs.drop k) (ok it') ∧
      s'.toList.take (i + min k vs.length) = s.toList.take i ++ vs.take k := by
  induction h with
  | @done it it2 h =>
    intro k i amt s hk hr
    simp only [ok.injEq] at hr
    subst hr
    cases k with
    | zero => exact ⟨it, s, rfl, Runs.done h, by simp⟩
    | succ k =>
      refine ⟨it2, s, ?_, by simpa using Runs.done hend, by simp⟩
      simp [Unrolled.nextLoop, h]
  | @fail it r h hr =>
    intro k i amt s hk hr2
    cases r with
    | ok a => exact absurd rfl (hr a)
    | _ => simp [castFail] at hr2
  | @step it it1 v vs r h1 h2 ih =>
    intro k i amt s hk hr
    cases k with
    | zero => exact ⟨it, s, rfl, by rw [hr] at h2; exact Runs.step h1 h2, by simp⟩
    | succ k =>
      have hi : i < 8 := by omega
      obtain ⟨it2, s', e1, e2, e3⟩ := ih k (i + 1) amt (s.set i v) (by omega) hr
      refine ⟨it2, s', ?_, by simpa using e2, ?_⟩
      · simp only [Unrolled.nextLoop, h1, ok_bind, hi, dif_pos]
        rw [e1]
        simp only [List.length_cons]
        congr 2; omega
      · simp only [List.length_cons]
        rw [show i + min (k + 1) (vs.length + 1) = i + 1 + min k vs.length by omega, e3]
        simp only [List.take_succ_cons]
        have hs : s.toList.length = 8 := by simp
        rw [Vector.toList_set, List.take_succ_eq_append_getElem (by simp; omega)]
        simp [List.take_set_of_le]

/-- One call of `Unrolled::next` with `0 < amt ≤ 8`. -/
theorem unrolled_next {c : Cfg} {it it' : T} (hend : next c it' = ok (none, it'))
    {vs : List (Vector α w)} (h : Runs c it vs (ok it')) (amt : Nat) (s : Vector (Vector α w) 8)
    (ha0 : 0 < amt) (ha : amt ≤ 8) :
    ∃ it1 s', Unrolled.next c ⟨it, amt, s⟩ =
        ok (if vs = [] then none else some ⟨min amt vs.length⟩, ⟨it1, amt, s'⟩) ∧
      Runs c it1 (vs.drop amt) (ok it') ∧
      s'.toList.take (min amt vs.length) = vs.take amt := by
  obtain ⟨it1, s', e1, e2, e3⟩ := unrolled_nextLoop hend h amt 0 amt s (by omega) rfl
  refine ⟨it1, s', ?_, e2, by simpa using e3⟩
  simp only [Unrolled.next, e1, ok_bind]
  cases vs with
  | nil => simp
  | cons v vs => simp; omega

/-- **C19** for any iterator which yields `vs` and then keeps returning `None`:
the slices are `vs` cut into chunks of `amt`. -/
theorem C19_unroll {c : Cfg} {it' : T} (hend : next c it' = ok (none, it'))
    (amt : Nat) (ha0 : 0 < amt) (ha : amt ≤ 8) :
    ∀ (fuel : Nat) (it : T) (vs : List (Vector α w)) (s : Vector (Vector α w) 8),
    Runs c it vs (ok it') → vs.length < fuel →
    ∃ u', unrollRun c fuel ⟨it, amt, s⟩ = ok (chunksOf amt vs, u') := by
  intro fuel
  induction fuel with
  | zero => intro it vs s h hf; omega
  | succ fuel ih =>
    intro it vs s h hf
    obtain ⟨it1, s', e1, e2, e3⟩ := unrolled_next hend h amt s ha0 ha
    rw [chunksOf]
    by_cases hv : vs = []
    · subst hv
      rw [dif_pos (Or.inr rfl)]
      exact ⟨⟨it1, amt, s'⟩, by simp [unrollRun, e1]⟩
    · rw [dif_neg (not_or.mpr ⟨by omega, hv⟩)]
      have hlen : 0 < vs.length := List.length_pos_iff.mpr hv
      obtain ⟨u', e4⟩ := ih it1 (vs.drop amt) s' e2 (by simp; omega)
      refine ⟨u', ?_⟩
      simp only [unrollRun, e1, ok_bind, if_neg hv, e4, ScratchRef.read, e3]

end

/-- **C19** for slice iterators at any position. -/
theorem C19_unroll_slice {α : Type} [Packable α] {w : Nat} (c : Cfg) (data : List α) (d : Vector α w)
    (p amt fuel : Nat) (hw : 0 < w) (hlen : data.length + w < c.usize) (hp : p + w < c.usize)
    (ha0 : 0 < amt) (ha : amt ≤ 8) (hf : (data.length - p) / w < fuel) :
    ∃ u u', unroll (⟨p, ⟨data⟩, d⟩ : SIMDIter (Slice α w) α w) amt = ok u ∧
      unrollRun c fuel u = ok (chunksOf amt (fullWindows w (data.drop p)), u') := by
  have hr := represents_slice (w := w) c data
  have hruns := simdIter_runs hr d hw hlen p hp
  have hd := Nat.div_add_mod (data.length - p) w
  have hm := Nat.mod_lt (data.length - p) hw
  rw [Nat.mul_comm] at hd
  have hend := simdIter_next_none hr (p := p + (data.length - p) / w * w) (d := d) (by omega) (by omega)
  obtain ⟨u', e⟩ := C19_unroll hend amt ha0 ha fuel _ _
    (Vector.replicate 8 Packed.default) hruns (by rw [fullWindows_length, List.length_drop]; exact hf)
  refine ⟨_, u', ?_, e⟩
  simp [unroll, ha]

/-- **C19**: more than eight vectors per chunk panics. -/
theorem C19_unroll_too_many {T α : Type} {w : Nat} [SIMDSized T] [SIMDIterator T α w] [Packable α]
    (it : T) (amt : Nat) (h : 8 < amt) : (unroll it amt : Res (Unrolled T α w)) = panic := by
  simp [unroll, show ¬ amt ≤ 8 by omega]

/-- What `chunksOf` is: chunks of the requested size, a non-empty last one,
concatenating to the list. -/
theorem C19_chunksOf {β : Type} (n : Nat) (hn : 0 < n) (l : List β) :
    (chunksOf n l).flatten = l ∧
    (∀ x ∈ (chunksOf n l).dropLast, x.length = n) ∧
    (∀ x ∈ chunksOf n l, 0 < x.length ∧ x.length ≤ n) := by
  induction h : l.length using Nat.strongRecOn generalizing l with
  | _ m ih =>
    rw [chunksOf]
    by_cases hl : l = []
    · subst hl; simp
    · rw [dif_neg (not_or.mpr ⟨by omega, hl⟩)]
      have hlen : 0 < l.length := List.length_pos_iff.mpr hl
      obtain ⟨i1, i2, i3⟩ := ih (l.drop n).length (by simp; omega) (l.drop n) rfl
      refine ⟨by simp [i1], ?_, ?_⟩
      · by_cases hc : chunksOf n (l.drop n) = []
        · simp [hc]
        · rw [List.dropLast_cons_of_ne_nil hc]
          intro x hx
          rcases List.mem_cons.mp hx with rfl | hx
          · have : l.drop n ≠ [] := by
              intro e; apply hc; rw [chunksOf]; simp [e]
            have h2 : 0 < (l.drop n).length := List.length_pos_iff.mpr this
            simp at h2 ⊢; omega
          · exact i2 x hx
      · intro x hx
        rcases List.mem_cons.mp hx with rfl | hx
        · simp; omega
        · exact i3 x hx

example : (do
    let u ← unroll (simdIter (w := 1) [1#8, 2, 3, 4, 5] #v[0]) 2
    let (chunks, _) ← unrollRun release64 9 u
    ok chunks) = ok [[#v[1], #v[2]], [#v[3], #v[4]], [#v[5]]] := by decide +kernel

/-! ### C20 -/

/-- **C20 is false**: if two full chunks are left, the slice returned by the first
`next` has the contents of the second chunk after the second `next`. -/
theorem C20_chunk_overwritten {T α : Type} {w : Nat} [SIMDSized T] [SIMDIterator T α w] (c : Cfg)
    {it it' : T} (hend : next c it' = ok (none, it'))
    {vs : List (Vector α w)} (h : Runs c it vs (ok it')) (amt : Nat) (s : Vector (Vector α w) 8)
    (ha0 : 0 < amt) (ha : amt ≤ 8) (hv : 2 * amt ≤ vs.length) :
    ∃ ref ref' u1 u2, Unrolled.next c ⟨it, amt, s⟩ = ok (some ref, u1) ∧
      ref.read u1 = vs.take amt ∧
      Unrolled.next c u1 = ok (some ref', u2) ∧
      ref.read u2 = (vs.drop amt).take amt := by
  obtain ⟨it1, s1, e1, e2, e3⟩ := unrolled_next hend h amt s ha0 ha
  obtain ⟨it2, s2, f1, f2, f3⟩ := unrolled_next hend e2 amt s1 ha0 ha
  have h1 : vs ≠ [] := by intro e; subst e; simp at hv; omega
  have h2 : vs.drop amt ≠ [] := by
    intro e
    have := congrArg List.length e
    simp at this; omega
  rw [if_neg h1] at e1
  rw [if_neg h2] at f1
  refine ⟨_, _, _, _, e1, e3, f1, ?_⟩
  rw [show min amt (vs.drop amt).length = min amt vs.length by simp; omega] at f3
  exact f3

theorem C20_false : ∃ (u0 u1 u2 : Unrolled (SIMDIter (Slice (BitVec 8) 1) (BitVec 8) 1) (BitVec 8) 1)
    (ref ref' : ScratchRef), unroll (simdIter (w := 1) [1#8, 2] #v[0]) 1 = ok u0 ∧
    Unrolled.next debug64 u0 = ok (some ref, u1) ∧ Unrolled.next debug64 u1 = ok (some ref', u2) ∧
    ref.read u1 = [#v[1]] ∧ ref.read u2 = [#v[2]] := by
  refine ⟨_, ⟨⟨1, ⟨[1, 2]⟩, #v[0]⟩, 1, #v[#v[1], #v[0], #v[0], #v[0], #v[0], #v[0], #v[0], #v[0]]⟩,
    ⟨⟨2, ⟨[1, 2]⟩, #v[0]⟩, 1, #v[#v[2], #v[0], #v[0], #v[0], #v[0], #v[0], #v[0], #v[0]]⟩, ⟨1⟩, ⟨1⟩,
    rfl, ?_⟩
  decide +kernel

/-- **C20**, the part which holds: the contents are right until `next` is called
again. Missing: after that (`C20_chunk_overwritten`). -/
theorem C20_chunk_until_next_partial {T α : Type} {w : Nat} [SIMDSized T] [SIMDIterator T α w]
    (c : Cfg) {it it' : T} (hend : next c it' = ok (none, it'))
    {vs : List (Vector α w)} (h : Runs c it vs (ok it')) (amt : Nat) (s : Vector (Vector α w) 8)
    (ha0 : 0 < amt) (ha : amt ≤ 8) (hv : vs ≠ []) :
    ∃ ref u1, Unrolled.next c ⟨it, amt, s⟩ = ok (some ref, u1) ∧ ref.read u1 = vs.take amt := by
  obtain ⟨it1, s1, e1, e2, e3⟩ := unrolled_next hend h amt s ha0 ha
  rw [if_neg hv] at e1
  exact ⟨_, _, e1, e3⟩

end Faster
