import Verif.Props.Views
import Verif.Props.Stride
import Verif.Props.StrideZipTrace
import Verif.Props.Adapter
/-
C18 for every array-like iterator, and C16 for `stride_zip`s and adapters.
-/
namespace Faster
open Res SIMDSized SIMDIterable SIMDIterator

/-! ### C18 -/

section
variable {T α : Type} {w : Nat} [SIMDSized T] [SIMDIterable T α w] [SIMDArray T α w]

/-- **C18**, for every iterator `S p` which stands at element `p` of a list: `k` calls of `next` on
`unpack()` return the elements from `p` on one by one, then `None`, and `pack()` gives the iterator
behind the elements taken. -/
theorem C18_unpack_any (c : Cfg) (S : Nat → T) (l : List α) (hrep : ∀ p, Represents c (S p) l)
    (hpos : ∀ p, p ≤ l.length → scalarPos c (S p) = ok p)
    (hadv : ∀ p, p < l.length → advance c (S p) 1 = ok (S (p + 1))) : ∀ (k p : Nat), p ≤ l.length →
    unpackRun c k (unpack (S p)) =
      ok ((List.range k).map (fun i => l[p + i]?), ⟨S (p + min k (l.length - p))⟩) := by
  intro k
  induction k with
  | zero => intro p _; simp [unpackRun, unpack]
  | succ k ih =>
    intro p hp
    have hnext : Unpacked.next c (⟨S p⟩ : Unpacked T) =
        ok (l[p]?, ⟨S (if p < l.length then p + 1 else p)⟩) := by
      simp only [Unpacked.next, hpos p hp, (hrep p).scalarLen, ok_bind]
      by_cases h : p < l.length
      · rw [if_pos h, (hrep p).loadScalarUnchecked p h]
        simp only [ok_bind, hadv p h]
        simp [h]
      · simp [h]
    simp only [unpack] at ih
    simp only [unpackRun, unpack, hnext, ok_bind, List.range_succ_eq_map, List.map_cons,
      List.map_map, Nat.add_zero]
    by_cases h : p < l.length
    · rw [if_pos h, ih (p + 1) (by omega)]
      simp only [ok_bind]
      refine congrArg ok (Prod.ext ?_ ?_)
      · simp only [List.cons.injEq, true_and]
        apply List.map_congr_left
        intro i _
        simp only [Function.comp]
        congr 1; omega
      · simp only [Unpacked.mk.injEq]
        congr 1; omega
    · rw [if_neg h, ih p hp]
      simp only [ok_bind]
      refine congrArg ok (Prod.ext ?_ ?_)
      · simp only [List.cons.injEq, true_and]
        apply List.map_congr_left
        intro i _
        simp only [Function.comp]
        rw [List.getElem?_eq_none (by omega), List.getElem?_eq_none (by omega)]
      · simp only [Unpacked.mk.injEq]
        congr 1; omega

end

section
variable {A α : Type} {w : Nat} [SIMDSized A] [SIMDArray A α w] [Packable α]

/-- **C18** for strides of anything array-like: the scalars are the elements `k, k+s, k+2s, …` from
the position on, and the packed stride continues behind the scalars taken. -/
theorem C18_stride {c : Cfg} {a : A} {l : List α} (h : Represents c a l) {s k : Nat} (hk : k < s)
    (d : Vector α w) (hw : 0 < w) (hu : l.length + s * (w + 1) < c.usize) (n p : Nat)
    (hp : p ≤ l.length / s) :
    unpackRun c n (unpack (⟨a, k + s * p, k, s, d⟩ : PackedStride A α w)) =
      ok ((List.range n).map (fun i => (strided s k l hk)[p + i]?),
        ⟨⟨a, k + s * (p + min n (l.length / s - p)), k, s, d⟩⟩) := by
  have := C18_unpack_any c (fun p => (⟨a, k + s * p, k, s, d⟩ : PackedStride A α w))
    (strided s k l hk) (fun p => represents_stride h hk (k + s * p) d hw hu)
    (stride_driver h hk d hw hu).pos ?_ n p (by rw [strided_length]; exact hp)
  · rw [strided_length] at this
    exact this
  · intro p hp
    rw [strided_length] at hp
    have h1 : s * (p + 1) ≤ s * (l.length / s) := Nat.mul_le_mul_left s (by omega)
    have h2 : s * (l.length / s) ≤ l.length := Nat.mul_div_le _ _
    have h3 : s * (p + 1) = s * p + s := by rw [Nat.mul_add, Nat.mul_one]
    have h4 : s * (w + 1) = s * w + s := by rw [Nat.mul_add, Nat.mul_one]
    simp only [SIMDIterable.advance, PackedStride.advance]
    rw [umul_ok (by omega)]
    simp only [ok_bind]
    rw [uadd_ok (by omega)]
    simp only [ok_bind]
    congr 2
    omega

/-- **C18** for strides: after taking `n` of the remaining scalars, the packed stride delivers the
vectors of the elements from there on. -/
theorem C18_stride_pack {c : Cfg} {a : A} {l : List α} (h : Represents c a l) {s k : Nat} (hk : k < s)
    (d : Vector α w) (hw : 0 < w) (hu : l.length + s * (w + 1) < c.usize) (n p : Nat)
    (hp : p + n ≤ l.length / s) :
    ∃ xs u m r, unpackRun c n (unpack (⟨a, k + s * p, k, s, d⟩ : PackedStride A α w)) = ok (xs, u) ∧
      xs = (((strided s k l hk).drop p).take n).map some ∧
      Driver.count w ((strided s k l hk).drop (p + n)) m ∧
      Runs c u.pack ((fullWindows w ((strided s k l hk).drop (p + n))).take m) (ok r) := by
  obtain ⟨m, h1, -, h2⟩ := (stride_driver h hk d hw hu).runs_from hw (p + n)
    (by rw [strided_length]; exact hp)
  refine ⟨_, _, m, (⟨a, k + s * (p + n + m * w), k, s, d⟩ : PackedStride A α w),
    C18_stride h hk d hw hu n p (by omega), ?_, h2, ?_⟩
  rotate_left 1
  · simp only [Unpacked.pack]
    rw [show p + min n (l.length / s - p) = p + n by omega]
    exact h1
  · apply List.ext_getElem
    · simp [strided_length]; omega
    · intro i h1 h2
      simp

end

/-- Two scalars of a stride of two, then its next vector. -/
example : (do
    let (xs, u) ← unpackRun debug64 2
      (unpack (strideAt (⟨[1#8, 2, 3, 4, 5, 6, 7, 8, 9]⟩ : Slice _ 2) 2 0 #v[0#8, 0]))
    let (v, _) ← next debug64 u.pack
    ok (xs, v)) = ok ([some 1, some 3], some #v[5, 7]) := by decide +kernel

/-! ### C16 -/

theorem ZRuns.unique {Z γ : Type} [SIMDZippedIterator Z γ] {c : Cfg} {z : Z} {vs us : List γ}
    {r s : Res Z} (h : ZRuns c z vs r) (h' : ZRuns c z us s) : vs = us ∧ r = s := by
  induction h generalizing us s with
  | done e =>
    cases h' with
    | done e' => rw [e] at e'; simp only [ok.injEq, Prod.mk.injEq, true_and] at e'; simp [e']
    | fail e' hf => exact absurd (e'.symm.trans e) (hf _)
    | step e' _ => rw [e] at e'; simp at e'
  | fail e hf =>
    cases h' with
    | done e' => exact absurd (e.symm.trans e') (hf _)
    | fail e' _ => rw [← e, ← e']; exact ⟨rfl, rfl⟩
    | step e' _ => exact absurd (e.symm.trans e') (hf _)
  | step e _ ih =>
    cases h' with
    | done e' => rw [e] at e'; simp at e'
    | fail e' hf => exact absurd (e'.symm.trans e) (hf _)
    | step e' h2 =>
      rw [e] at e'
      simp only [ok.injEq, Prod.mk.injEq, Option.some.injEq] at e'
      obtain ⟨rfl, rfl⟩ := e'
      obtain ⟨h3, h4⟩ := ih h2
      exact ⟨by rw [h3], h4⟩

section
variable {α : Type} [Packable α] {w : Nat} (c : Cfg) (l : List α) (d : Vector α w)

/-- **C16** for `stride_zip`s, wherever the inner iterator stands and whatever is kept back: `len()`
stays the number of full vectors of pairs of the whole collection, `next` returns those of the
rest. -/
theorem C16_stride_zip (b : Nat) (pk : Option (Vector α w)) (hw : 0 < w)
    (hu : l.length + 2 * w < c.usize) : ∀ (n p : Nat), p ≤ l.length → n = (l.length - p) / (2 * w) →
    SIMDZippedIterator.len c (pairsAt l d b pk p) = ok (l.length / (2 * w)) ∧
    ∃ vs z', ZRuns c (pairsAt l d b pk p) vs (ok z') ∧ vs.length = n := by
  have hr := represents_slice (w := w) c l
  intro n
  induction n with
  | zero =>
    intro p hp hn
    refine ⟨?_, ?_⟩
    · simp only [SIMDZippedIterator.len, SIMDIterable.len, SIMDSized.scalarLen, ok_bind, udiv_ok hw,
        Nat.div_div_eq_div_mul, Nat.mul_comm w 2]
    · have hlt : l.length < p + 2 * w := by
        rcases Nat.lt_or_ge (l.length - p) (2 * w) with h | h
        · omega
        · have := Nat.div_pos h (show 0 < 2 * w by omega)
          omega
      by_cases h1 : p + w ≤ l.length
      · have e1 := simdIter_next_some hr (d := d) h1 (by omega)
        have e2 := simdIter_next_none hr (d := d) (p := p + w) (by omega) (by omega)
        refine ⟨[], _, ZRuns.done (z' := pairsAt l d b (some (windowAt l p w h1)) (p + w)) ?_, rfl⟩
        simp only [SIMDZippedIterator.next, StrideZip.next, e1, e2, ok_bind]
      · have e1 := simdIter_next_none hr (d := d) (p := p) (by omega) (by omega)
        refine ⟨[], _, ZRuns.done (z' := pairsAt l d b pk p) ?_, rfl⟩
        simp only [SIMDZippedIterator.next, StrideZip.next, e1, ok_bind]
  | succ n ih =>
    intro p hp hn
    have hge : 2 * w ≤ l.length - p := by
      rcases Nat.lt_or_ge (l.length - p) (2 * w) with h | h
      · rw [Nat.div_eq_of_lt h] at hn; omega
      · exact h
    have hn' : n = (l.length - (p + 2 * w)) / (2 * w) := by
      rw [show l.length - p = l.length - (p + 2 * w) + 2 * w by omega,
        Nat.add_div_right _ (by omega)] at hn
      omega
    obtain ⟨h1, vs, z', h2, h3⟩ := ih (p + 2 * w) (by omega) hn'
    refine ⟨h1, ?_⟩
    have e1 := simdIter_next_some hr (d := d) (p := p) (by omega) (by omega)
    have e2 := simdIter_next_some hr (d := d) (p := p + w) (by omega) (by omega)
    refine ⟨Packed.destrideTwo (windowAt l p w (by omega)) (windowAt l (p + w) w (by omega)) :: vs,
      z', ZRuns.step (z1 := pairsAt l d b pk (p + 2 * w)) ?_ h2, by simp [h3]⟩
    · simp only [SIMDZippedIterator.next, StrideZip.next, e1, e2, ok_bind, Nat.two_mul, Nat.add_assoc]

/-- **C16** for `stride_zip`s: `len()` is right exactly if no more elements have been consumed than the
incomplete last vectors have. -/
theorem C16_stride_zip_iff (b : Nat) (pk : Option (Vector α w)) (p : Nat) (hw : 0 < w)
    (hu : l.length + 2 * w < c.usize) (hp : p ≤ l.length) :
    (∃ vs z', ZRuns c (pairsAt l d b pk p) vs (ok z') ∧
      SIMDZippedIterator.len c (pairsAt l d b pk p) = ok vs.length) ↔
    p ≤ l.length % (2 * w) := by
  obtain ⟨h1, us, z1, h2, h3⟩ := C16_stride_zip c l d b pk hw hu _ p hp rfl
  have key : l.length / (2 * w) = (l.length - p) / (2 * w) ↔ p ≤ l.length % (2 * w) := by
    have hd := Nat.div_add_mod l.length (2 * w)
    have hm := Nat.mod_lt l.length (show 0 < 2 * w by omega)
    rw [eq_comm, Nat.div_eq_iff (by omega)]
    rw [Nat.mul_comm (2 * w)] at hd
    omega
  rw [← key]
  constructor
  · rintro ⟨vs, z', h4, h5⟩
    obtain ⟨rfl, -⟩ := ZRuns.unique h2 h4
    rw [h1, h3] at h5
    simpa using h5
  · intro h
    exact ⟨us, z1, h2, by rw [h1, h3, h]⟩

end

/-- **C16** for adapters in every state: `len()` is the number of full vectors left in the wrapped
iterator, of which `next` returns at most about half, since it compares the number of scalars left
with the position. -/
theorem C16_adapter {α : Type} {w : Nat} (c : Cfg) (l : List α) (s d : Vector α w) (p : Nat)
    (hw : 0 < w) (hu : p + l.length + w < c.usize) :
    SIMDIterable.len c (⟨l, s, d, p⟩ : SIMDAdapter α w) = ok (l.length / w) ∧
    ∃ vs r, Runs c (⟨l, s, d, p⟩ : SIMDAdapter α w) vs (ok r) ∧
      vs.length = if p ≤ l.length then ((l.length - p) / w + 1) / 2 else 0 := by
  obtain ⟨s', h⟩ := adapter_runs c d hw _ l s p hu rfl
  refine ⟨udiv_ok hw, _, _, h, ?_⟩
  rw [List.length_take, fullWindows_length, Nat.min_eq_left]
  split
  · have h1 : (l.length - p) / w ≤ l.length / w := Nat.div_le_div_right (by omega)
    generalize (l.length - p) / w = x at *
    generalize l.length / w = y at *
    omega
  · exact Nat.zero_le _

/-- **C16** for fresh adapters: `len()` is right exactly if there is at most one full vector. -/
theorem C16_adapter_iff {α : Type} {w : Nat} (c : Cfg) (l : List α) (d : Vector α w) (hw : 0 < w)
    (hu : l.length + w < c.usize) :
    (∃ vs r, Runs c (simdAdapter l d) vs (ok r) ∧
      SIMDIterable.len c (simdAdapter l d) = ok vs.length) ↔ l.length < 2 * w := by
  obtain ⟨h1, us, r1, h2, h3⟩ := C16_adapter c l d d 0 hw (by omega)
  rw [if_pos (Nat.zero_le _), Nat.sub_zero] at h3
  have key : l.length / w = (l.length / w + 1) / 2 ↔ l.length < 2 * w := by
    rw [← Nat.div_lt_iff_lt_mul hw]
    generalize l.length / w = x
    omega
  rw [← key]
  constructor
  · rintro ⟨vs, r, h4, h5⟩
    obtain ⟨rfl, -⟩ := Runs.unique h2 h4
    rw [← h3]
    exact (ok.inj (h1.symm.trans h5))
  · intro h
    exact ⟨us, r1, h2, by rw [h3, ← h]; exact h1⟩

/-- Nine scalars, two lanes: `len()` says 4, two vectors come. -/
example : (do
    let a := simdAdapter [1#8, 2, 3, 4, 5, 6, 7, 8, 9] #v[0#8, 0]
    let n ← SIMDIterable.len debug64 a
    let (x, a) ← next debug64 a
    let (y, a) ← next debug64 a
    let (z, _) ← next debug64 a
    ok (n, x, y, z)) = ok (4, some #v[1, 2], some #v[3, 4], none) := by decide +kernel

end Faster
