import Verif.Props.AnyArray
import Verif.Props.Stride
/-
C137: strides of strides. `PackedStride` implements `SIMDArray` (src/stride.rs:293),
and `stride_two` … are methods of every `SIMDArray` (src/stride.rs:114), so the
iterators a stride returns can be strided again; the same is true of `SIMDIter`
(src/iters.rs:479), whose position a stride ignores.
-/
namespace Faster
open Res SIMDSized SIMDIterable SIMDIterator

section
variable {α : Type}

theorem nested_lt {s k s' k' : Nat} (hk : k < s) (hk' : k' < s') : k + s * k' < s * s' := by
  have h : s * k' + s ≤ s * s' := by
    rw [← Nat.mul_succ]
    exact Nat.mul_le_mul_left s hk'
  omega

/-- **C137**: every `s'`-th element from the `k'`-th on of every `s`-th element from the `k`-th on is
every `s * s'`-th element from the `k + s * k'`-th on. -/
theorem C137_strided {s k s' k' : Nat} (hk : k < s) (hk' : k' < s') (l : List α) :
    strided s' k' (strided s k l hk) hk' = strided (s * s') (k + s * k') l (nested_lt hk hk') := by
  apply List.ext_getElem
  · simp only [strided_length]
    rw [Nat.div_div_eq_div_mul]
  · intro i h1 h2
    simp only [strided_getElem]
    congr 1
    rw [Nat.mul_add, Nat.mul_assoc, Nat.add_assoc]

end

section Passes
variable {A α : Type} {w : Nat} [SIMDSized A] [SIMDArray A α w] [Packable α]

theorem nested_room {s s' n w u : Nat} (hs : 0 < s) (hs' : 0 < s')
    (hu : n + s * s' * (w + 1) < u) :
    n + s * (w + 1) < u ∧ n / s + s' * (w + 1) < u := by
  have h1 : s * (w + 1) ≤ s * s' * (w + 1) :=
    Nat.mul_le_mul_right _ (Nat.le_mul_of_pos_right s hs')
  have h2 : s' * (w + 1) ≤ s * s' * (w + 1) :=
    Nat.mul_le_mul_right _ (Nat.le_mul_of_pos_left s' hs)
  have h3 : n / s ≤ n := Nat.div_le_self n s
  omega

/-- The nested strided iterator walks over the elements of a single stride. -/
theorem nested_driver {c : Cfg} {a : A} {l : List α} (h : Represents c a l) {s k s' k' : Nat}
    (hk : k < s) (hk' : k' < s') (p : Nat) (d0 d : Vector α w) (hw : 0 < w)
    (hu : l.length + s * s' * (w + 1) < c.usize) :
    Driver c (fun q => (⟨⟨a, p, k, s, d0⟩, k' + s' * q, k', s', d⟩ :
        PackedStride (PackedStride A α w) α w))
      (strided (s * s') (k + s * k') l (nested_lt hk hk')) d
      (fun q => k' + s' * (q + w) < l.length / s) := by
  obtain ⟨h1, h2⟩ := nested_room (w := w) (u := c.usize) (n := l.length) (Nat.zero_lt_of_lt hk)
    (Nat.zero_lt_of_lt hk') hu
  have := stride_driver (represents_stride h hk p d0 hw h1) hk' d hw (by rwa [strided_length])
  rw [C137_strided hk hk', strided_length] at this
  exact this

/-- **C137**: `simd_do_each` over a stride of a stride, whatever the position and the default of the
inner stride: the closure gets exactly the vectors it gets from a single stride by the product. -/
theorem C137_do_each {σ : Type} {c : Cfg} {a : A} {l : List α} (h : Represents c a l)
    {s k s' k' : Nat} (hk : k < s) (hk' : k' < s') (p : Nat) (d0 d : Vector α w) (st : σ)
    (f : FnMut σ (Vector α w) Unit) (fuel : Nat) (hw : 0 < w)
    (hu : l.length + s * s' * (w + 1) < c.usize) (hfuel : l.length / (s * s') / w < fuel) :
    simdDoEach c fuel (strideAt (⟨a, p, k, s, d0⟩ : PackedStride A α w) s' k' d) st f = (do
      let (_, st') ← callAll f st (calls w d (strided (s * s') (k + s * k') l (nested_lt hk hk')))
      ok (⟨⟨a, p, k, s, d0⟩, k' + s' * (l.length / (s * s')), k', s', d⟩, st')) ∧
    simdDoEach c fuel (strideAt a (s * s') (k + s * k') d) st f = (do
      let (_, st') ← callAll f st (calls w d (strided (s * s') (k + s * k') l (nested_lt hk hk')))
      ok (⟨a, k + s * k' + s * s' * (l.length / (s * s')), k + s * k', s * s', d⟩, st')) := by
  constructor
  · have := (nested_driver h hk hk' p d0 d hw hu).do_each fuel st f hw (by rwa [strided_length])
    simp only [Nat.mul_zero, Nat.add_zero, strided_length] at this
    exact this
  · exact C136_stride h fuel (nested_lt hk hk') d st f hw hu hfuel

/-- **C137**: `simd_reduce` over a stride of a stride. -/
theorem C137_reduce {B σ : Type} {c : Cfg} {a : A} {l : List α} (h : Represents c a l)
    {s k s' k' : Nat} (hk : k < s) (hk' : k' < s') (p : Nat) (d0 d : Vector α w) (start : B) (st : σ)
    (f : σ → B → Vector α w → Res (B × σ)) (fuel : Nat) (hw : 0 < w)
    (hu : l.length + s * s' * (w + 1) < c.usize) (hfuel : l.length / (s * s') / w < fuel) :
    simdReduce c fuel (strideAt (⟨a, p, k, s, d0⟩ : PackedStride A α w) s' k' d) start st f = (do
      let (acc, st') ← (calls w d (strided (s * s') (k + s * k') l (nested_lt hk hk'))).foldlM
        (fun (acc, st) v => f st acc v) (start, st)
      ok (⟨⟨a, p, k, s, d0⟩, k' + s' * (l.length / (s * s')), k', s', d⟩, acc, st')) := by
  have := (nested_driver h hk hk' p d0 d hw hu).reduce fuel start st f hw (by rwa [strided_length])
  simp only [Nat.mul_zero, Nat.add_zero, strided_length] at this
  exact this

/-- **C137**: `simd_map` and `scalar_collect` over a stride of a stride. -/
theorem C137_collect {β σ : Type} [Packable β] {w' : Nat} {c : Cfg} {a : A}
    {l : List α} (h : Represents c a l) {s k s' k' : Nat} (hk : k < s) (hk' : k' < s') (p : Nat)
    (d0 d : Vector α w) (fuel : Nat) (st : σ)
    (f : FnMut σ (Vector α w) (Vector β w')) (hw : 0 < w) (hw' : 0 < w') (hs : 0 < Packable.size β)
    (hsize : w * Packable.size α = w' * Packable.size β)
    (hu : l.length + s * s' * (w + 1) < c.usize)
    (hlen' : (l.length / (s * s') / w + 1) * w' < c.usize) (hvec : w * Packable.size α < c.usize)
    (hfuel : l.length / (s * s') / w < fuel) :
    scalarCollect c fuel
      (simdMap (strideAt (⟨a, p, k, s, d0⟩ : PackedStride A α w) s' k' d) st f) = (do
      let (outs, st') ← callAll f st
        (calls w d (strided (s * s') (k + s * k') l (nested_lt hk hk')))
      ok (⟨⟨⟨a, p, k, s, d0⟩, k' + s' * (l.length / (s * s')), k', s', d⟩, st', f⟩,
        (unpad ((w - l.length / (s * s') % w) % w * Packable.size α / Packable.size β)
          outs).map some)) := by
  have := (nested_driver h hk hk' p d0 d hw hu).collect_map fuel st f hw hw' hs hsize
    (by rwa [strided_length]) hvec (by rwa [strided_length])
  simp only [Nat.mul_zero, Nat.add_zero, strided_length] at this
  exact this

/-- **C137**: which of the vectors come from `next`. The nested iterator's `next` answers are among
those of the single stride; the vector it leaves out is then given by `end`. -/
theorem C137_next {c : Cfg} {a : A} {l : List α} (h : Represents c a l) {s k s' k' : Nat}
    (hk : k < s) (hk' : k' < s') (p q : Nat) (d0 d : Vector α w) (hw : 0 < w)
    (hu : l.length + s * s' * (w + 1) < c.usize) (hq : q ≤ l.length / (s * s')) :
    (k' + s' * (q + w) < l.length / s →
      ∃ hqw, next c (⟨⟨a, p, k, s, d0⟩, k' + s' * q, k', s', d⟩ :
          PackedStride (PackedStride A α w) α w) =
        ok (some (windowAt (strided (s * s') (k + s * k') l (nested_lt hk hk')) q w hqw),
          ⟨⟨a, p, k, s, d0⟩, k' + s' * (q + w), k', s', d⟩) ∧
      next c (⟨a, k + s * k' + s * s' * q, k + s * k', s * s', d⟩ : PackedStride A α w) =
        ok (some (windowAt (strided (s * s') (k + s * k') l (nested_lt hk hk')) q w hqw),
          ⟨a, k + s * k' + s * s' * (q + w), k + s * k', s * s', d⟩)) ∧
    (l.length / s ≤ k' + s' * (q + w) →
      next c (⟨⟨a, p, k, s, d0⟩, k' + s' * q, k', s', d⟩ :
        PackedStride (PackedStride A α w) α w) =
        ok (none, ⟨⟨a, p, k, s, d0⟩, k' + s' * q, k', s', d⟩) ∧
      l.length / (s * s') ≤ q + w) := by
  have hn := nested_driver h hk hk' p d0 d hw hu
  have hs := stride_driver h (nested_lt hk hk') d hw hu
  constructor
  · intro hm
    obtain ⟨hqw, e⟩ := hn.next_some q hm
    refine ⟨hqw, e, ?_⟩
    have hm2 : k + s * k' + s * s' * (q + w) < l.length := by
      have h1 := strided_index hk hm
      rw [Nat.mul_add] at h1
      rw [Nat.mul_assoc]
      omega
    obtain ⟨_, e2⟩ := hs.next_some q hm2
    exact e2
  · intro hm
    have hq' : q ≤ (strided (s * s') (k + s * k') l (nested_lt hk hk')).length := by
      rwa [strided_length]
    refine ⟨hn.next_none q hq' (by omega), ?_⟩
    have := hn.few q (by omega)
    rwa [strided_length] at this

/-- **C137**: strides of an iterator: its position makes no difference. -/
theorem C137_of_iter {σ : Type} {c : Cfg} {a : A} {l : List α} (h : Represents c a l)
    {s k : Nat} (hk : k < s) (p : Nat) (d0 d : Vector α w) (st : σ)
    (f : FnMut σ (Vector α w) Unit) (fuel : Nat) (hw : 0 < w)
    (hu : l.length + s * (w + 1) < c.usize) (hfuel : l.length / s / w < fuel) :
    simdDoEach c fuel (strideAt (⟨p, a, d0⟩ : SIMDIter A α w) s k d) st f = (do
      let (_, st') ← callAll f st (calls w d (strided s k l hk))
      ok (⟨⟨p, a, d0⟩, k + s * (l.length / s), k, s, d⟩, st')) :=
  C136_stride (represents_iter h p d0) fuel hk d st f hw hu hfuel

end Passes

/-- The answer `next` leaves out: of nine elements the single stride by four gives its second vector
by `next`, the stride by two of the stride by two does not. -/
example :
    next debug64 (⟨(⟨[1#8, 2, 3, 4, 5, 6, 7, 8, 9]⟩ : Slice (BitVec 8) 1), 4, 0, 4, #v[0]⟩ :
        PackedStride (Slice (BitVec 8) 1) (BitVec 8) 1) >>= (fun x => ok x.1) =
      ok (some #v[5#8]) ∧
    next debug64 (⟨⟨(⟨[1#8, 2, 3, 4, 5, 6, 7, 8, 9]⟩ : Slice (BitVec 8) 1), 0, 0, 2, #v[0]⟩,
        2, 0, 2, #v[0]⟩ : PackedStride (PackedStride (Slice (BitVec 8) 1) (BitVec 8) 1) (BitVec 8) 1)
        >>= (fun x => ok x.1) =
      ok none := by
  constructor <;> decide +kernel

/-- The third of every three of the second of every two. -/
example : simdReduce release64 9
    (strideAt (strideAt (⟨(List.range 40).map (BitVec.ofNat 16)⟩ : Slice (BitVec 16) 2) 2 1
      #v[0#16, 0]) 3 2 #v[0#16, 0]) ([] : List (BitVec 16)) ()
      (fun _ acc v => ok (acc ++ v.toList, ())) >>= (fun x => ok x.2.1) =
    ok ([5, 11, 17, 23, 29, 35].map (BitVec.ofNat 16)) := by
  have e := C137_reduce (represents_slice (w := 2) release64 ((List.range 40).map (BitVec.ofNat 16)))
    (s := 2) (k := 1) (s' := 3) (k' := 2) (by decide) (by decide) 1 #v[0#16, 0] #v[0#16, 0]
    ([] : List (BitVec 16)) ()
    (fun _ acc v => ok (acc ++ v.toList, ())) 9 (by decide) (by decide) (by decide)
  simp only [strideAt] at e ⊢
  rw [e]
  decide +kernel

end Faster
