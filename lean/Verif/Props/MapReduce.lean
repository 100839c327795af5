import Verif.Props.Protocol
import Verif.Props.Fusion
import Verif.Zip
import Verif.Stride
/-
C149: a map which is consumed by `simd_reduce` or `simd_do_each` is the iterator below it, consumed
with both closures in one.
-/
namespace Faster
open Res SIMDSized SIMDIterable SIMDIterator

/-- `|acc, v| g(acc, f(v))`. -/
def mapReduceFn {σ τ A δ ε : Type} (f : FnMut σ δ ε) (g : τ → A → ε → Res (A × τ)) :
    σ × τ → A → δ → Res (A × σ × τ) := fun st acc v => do
  let (u, s) ← f st.1 v
  let (acc, t) ← g st.2 acc u
  ok (acc, s, t)

/-- `|v| g(f(v))`. -/
def mapEachFn {σ τ δ ε : Type} (f : FnMut σ δ ε) (g : FnMut τ ε Unit) : FnMut (σ × τ) δ Unit :=
  fun st v => do
    let (u, s) ← f st.1 v
    let (_, t) ← g st.2 u
    ok ((), s, t)

/-- In debug builds, the number of empty lanes which `end` returns is small: its product with the
size of an element does not overflow. -/
def SmallTail (c : Cfg) (I : Type) {α : Type} {w : Nat} [SIMDSized I] [SIMDIterator I α w] (sz : Nat) :
    Prop :=
  c.debug = true → ∀ (it : I) (v : Vector α w) (n : Nat) (it' : I),
    end_ c it = ok (some (v, n), it') → n * sz < c.usize

/-- The same for zips. -/
def ZSmallTail (c : Cfg) (Z : Type) {γ : Type} [SIMDZippedIterator Z γ] : Prop :=
  c.debug = true → ∀ (z : Z) (v : γ) (n : Nat) (z' : Z),
    SIMDZippedIterator.end_ c z = ok (some (v, n), z') → n * SIMDZippedIterator.size z' < c.usize

section
variable {I α β σ τ : Type} {w w' : Nat} [SIMDSized I] [SIMDIterator I α w] [Packable α] [Packable β]
  {c : Cfg}

/-- The arithmetic of a map's `end`, which has no effect on what `simd_reduce` and `simd_do_each` do. -/
theorem tail_arith {sz sz' n : Nat} (hs : 0 < sz') (h : c.debug = true → n * sz < c.usize) :
    ∃ m, (umul c n sz >>= fun x => udiv x sz') = ok m := by
  unfold umul
  split
  · exact ⟨_, udiv_ok hs⟩
  · split
    · rename_i h1 h2
      exact absurd (h h2) h1
    · exact ⟨_, udiv_ok hs⟩

theorem reduceLoop_simdMap {A : Type} (f : FnMut σ (Vector α w) (Vector β w'))
    (g : τ → A → Vector β w' → Res (A × τ)) : ∀ (fuel : Nat) (it : I) (s : σ) (acc : A) (t : τ),
    reduceLoop c g fuel (simdMap it s f) acc t =
      reduceLoop c (mapReduceFn f g) fuel it acc (s, t) >>= fun x =>
        ok (simdMap x.1 x.2.2.1 f, x.2.1, x.2.2.2) := by
  intro fuel
  induction fuel with
  | zero => intros; rfl
  | succ fuel ih =>
    intro it s acc t
    simp only [reduceLoop, SIMDIterable.next, SIMDMap.next, simdMap, bind_assoc]
    cases SIMDIterable.next c it with
    | ok x =>
      obtain ⟨r, it1⟩ := x
      simp only [ok_bind]
      cases r with
      | none => rfl
      | some v =>
        simp only [mapReduceFn, bind_assoc]
        cases f s v with
        | ok u =>
          simp only [ok_bind]
          cases g t acc u.1 with
          | ok y =>
            simp only [ok_bind]
            exact ih it1 u.2 y.1 y.2
          | _ => rfl
        | _ => rfl
    | _ => rfl

/-- **C149**, `simd_reduce`, for every iterator. -/
theorem C149_reduce {A : Type} (hI : SmallTail c I (Packable.size α)) (hs : 0 < Packable.size β)
    (fuel : Nat) (it : I) (start : A) (s : σ) (t : τ) (f : FnMut σ (Vector α w) (Vector β w'))
    (g : τ → A → Vector β w' → Res (A × τ)) :
    simdReduce c fuel (simdMap it s f) start t g =
      simdReduce c fuel it start (s, t) (mapReduceFn f g) >>= fun x =>
        ok (simdMap x.1 x.2.2.1 f, x.2.1, x.2.2.2) := by
  simp only [simdReduce, reduceLoop_simdMap, bind_assoc]
  congr 1
  funext x
  obtain ⟨it1, acc, s1, t1⟩ := x
  simp only [ok_bind, simdMap, SIMDIterator.end_, SIMDMap.end_, bind_assoc]
  cases he : SIMDIterator.end_ c it1 with
  | ok y =>
    obtain ⟨r, it2⟩ := y
    simp only [ok_bind]
    cases r with
    | none => rfl
    | some p =>
      obtain ⟨v, n⟩ := p
      obtain ⟨m, hm⟩ := tail_arith (sz := Packable.size α) hs (fun hd => hI hd it1 v n it2 he)
      obtain ⟨x1, hm1, hm2⟩ := bind_eq_ok.1 hm
      simp only [hm1, hm2, ok_bind, mapReduceFn, bind_assoc]
  | _ => rfl

theorem doEachLoop_simdMap (f : FnMut σ (Vector α w) (Vector β w'))
    (g : FnMut τ (Vector β w') Unit) : ∀ (fuel : Nat) (it : I) (s : σ) (t : τ),
    doEachLoop c g fuel (simdMap it s f) t =
      doEachLoop c (mapEachFn f g) fuel it (s, t) >>= fun x => ok (simdMap x.1 x.2.1 f, x.2.2) := by
  intro fuel
  induction fuel with
  | zero => intros; rfl
  | succ fuel ih =>
    intro it s t
    simp only [doEachLoop, SIMDIterable.next, SIMDMap.next, simdMap, bind_assoc]
    cases SIMDIterable.next c it with
    | ok x =>
      obtain ⟨r, it1⟩ := x
      simp only [ok_bind]
      cases r with
      | none => rfl
      | some v =>
        simp only [mapEachFn, bind_assoc]
        cases f s v with
        | ok u =>
          simp only [ok_bind]
          cases g t u.1 with
          | ok y =>
            simp only [ok_bind]
            exact ih it1 u.2 y.2
          | _ => rfl
        | _ => rfl
    | _ => rfl

/-- **C149**, `simd_do_each`, for every iterator. -/
theorem C149_do_each (hI : SmallTail c I (Packable.size α)) (hs : 0 < Packable.size β)
    (fuel : Nat) (it : I) (s : σ) (t : τ) (f : FnMut σ (Vector α w) (Vector β w'))
    (g : FnMut τ (Vector β w') Unit) :
    simdDoEach c fuel (simdMap it s f) t g =
      simdDoEach c fuel it (s, t) (mapEachFn f g) >>= fun x => ok (simdMap x.1 x.2.1 f, x.2.2) := by
  simp only [simdDoEach, doEachLoop_simdMap, bind_assoc]
  congr 1
  funext x
  obtain ⟨it1, s1, t1⟩ := x
  simp only [ok_bind, simdMap, SIMDIterator.end_, SIMDMap.end_, bind_assoc]
  cases he : SIMDIterator.end_ c it1 with
  | ok y =>
    obtain ⟨r, it2⟩ := y
    simp only [ok_bind]
    cases r with
    | none => rfl
    | some p =>
      obtain ⟨v, n⟩ := p
      obtain ⟨m, hm⟩ := tail_arith (sz := Packable.size α) hs (fun hd => hI hd it1 v n it2 he)
      obtain ⟨x1, hm1, hm2⟩ := bind_eq_ok.1 hm
      simp only [hm1, hm2, ok_bind, mapEachFn, bind_assoc]
  | _ => rfl

end

/-! ### Zips -/

section
variable {Z γ β σ τ : Type} {w' : Nat} [SIMDZippedIterator Z γ] [Packable β] {c : Cfg}

theorem reduceLoop_zipMap {A : Type} (f : FnMut σ γ (Vector β w'))
    (g : τ → A → Vector β w' → Res (A × τ)) : ∀ (fuel : Nat) (z : Z) (s : σ) (acc : A) (t : τ),
    reduceLoop c g fuel (zsimdMap z s f) acc t =
      zreduceLoop c (mapReduceFn f g) fuel z acc (s, t) >>= fun x =>
        ok (zsimdMap x.1 x.2.2.1 f, x.2.1, x.2.2.2) := by
  intro fuel
  induction fuel with
  | zero => intros; rfl
  | succ fuel ih =>
    intro it s acc t
    simp only [reduceLoop, zreduceLoop, SIMDIterable.next, SIMDZipMap.next, zsimdMap, bind_assoc]
    cases SIMDZippedIterator.next c it with
    | ok x =>
      obtain ⟨r, it1⟩ := x
      simp only [ok_bind]
      cases r with
      | none => rfl
      | some v =>
        simp only [mapReduceFn, bind_assoc]
        cases f s v with
        | ok u =>
          simp only [ok_bind]
          cases g t acc u.1 with
          | ok y =>
            simp only [ok_bind]
            exact ih it1 u.2 y.1 y.2
          | _ => rfl
        | _ => rfl
    | _ => rfl

/-- **C149**, `simd_reduce`, for every zip. -/
theorem C149_zip_reduce {A : Type} (hZ : ZSmallTail c Z) (hs : 0 < Packable.size β)
    (fuel : Nat) (z : Z) (start : A) (s : σ) (t : τ) (f : FnMut σ γ (Vector β w'))
    (g : τ → A → Vector β w' → Res (A × τ)) :
    simdReduce c fuel (zsimdMap z s f) start t g =
      zsimdReduce c fuel z start (s, t) (mapReduceFn f g) >>= fun x =>
        ok (zsimdMap x.1 x.2.2.1 f, x.2.1, x.2.2.2) := by
  simp only [simdReduce, zsimdReduce, reduceLoop_zipMap, bind_assoc]
  congr 1
  funext x
  obtain ⟨it1, acc, s1, t1⟩ := x
  simp only [ok_bind, zsimdMap, SIMDIterator.end_, SIMDZipMap.end_, bind_assoc]
  cases he : SIMDZippedIterator.end_ c it1 with
  | ok y =>
    obtain ⟨r, it2⟩ := y
    simp only [ok_bind]
    cases r with
    | none => rfl
    | some p =>
      obtain ⟨v, n⟩ := p
      obtain ⟨m, hm⟩ := tail_arith (sz := SIMDZippedIterator.size it2) hs
        (fun hd => hZ hd it1 v n it2 he)
      obtain ⟨x1, hm1, hm2⟩ := bind_eq_ok.1 hm
      simp only [hm1, hm2, ok_bind, mapReduceFn, bind_assoc]
  | _ => rfl

theorem doEachLoop_zipMap (f : FnMut σ γ (Vector β w')) (g : FnMut τ (Vector β w') Unit) :
    ∀ (fuel : Nat) (z : Z) (s : σ) (t : τ),
    doEachLoop c g fuel (zsimdMap z s f) t =
      zdoEachLoop c (mapEachFn f g) fuel z (s, t) >>= fun x => ok (zsimdMap x.1 x.2.1 f, x.2.2) := by
  intro fuel
  induction fuel with
  | zero => intros; rfl
  | succ fuel ih =>
    intro it s t
    simp only [doEachLoop, zdoEachLoop, SIMDIterable.next, SIMDZipMap.next, zsimdMap, bind_assoc]
    cases SIMDZippedIterator.next c it with
    | ok x =>
      obtain ⟨r, it1⟩ := x
      simp only [ok_bind]
      cases r with
      | none => rfl
      | some v =>
        simp only [mapEachFn, bind_assoc]
        cases f s v with
        | ok u =>
          simp only [ok_bind]
          cases g t u.1 with
          | ok y =>
            simp only [ok_bind]
            exact ih it1 u.2 y.2
          | _ => rfl
        | _ => rfl
    | _ => rfl

/-- **C149**, `simd_do_each`, for every zip. -/
theorem C149_zip_do_each (hZ : ZSmallTail c Z) (hs : 0 < Packable.size β)
    (fuel : Nat) (z : Z) (s : σ) (t : τ) (f : FnMut σ γ (Vector β w'))
    (g : FnMut τ (Vector β w') Unit) :
    simdDoEach c fuel (zsimdMap z s f) t g =
      zsimdDoEach c fuel z (s, t) (mapEachFn f g) >>= fun x => ok (zsimdMap x.1 x.2.1 f, x.2.2) := by
  simp only [simdDoEach, zsimdDoEach, doEachLoop_zipMap, bind_assoc]
  congr 1
  funext x
  obtain ⟨it1, s1, t1⟩ := x
  simp only [ok_bind, zsimdMap, SIMDIterator.end_, SIMDZipMap.end_, bind_assoc]
  cases he : SIMDZippedIterator.end_ c it1 with
  | ok y =>
    obtain ⟨r, it2⟩ := y
    simp only [ok_bind]
    cases r with
    | none => rfl
    | some p =>
      obtain ⟨v, n⟩ := p
      obtain ⟨m, hm⟩ := tail_arith (sz := SIMDZippedIterator.size it2) hs
        (fun hd => hZ hd it1 v n it2 he)
      obtain ⟨x1, hm1, hm2⟩ := bind_eq_ok.1 hm
      simp only [hm1, hm2, ok_bind, mapEachFn, bind_assoc]
  | _ => rfl

end

/-! ### The iterators of the crate -/

section
variable {α β : Type} {w : Nat} {c : Cfg}

/-- The blanket `end` returns at most a vector of empty lanes in debug builds. -/
theorem blanketEnd_small {T : Type} [SIMDSized T] [SIMDIterable T α w] [SIMDArray T α w]
    (hd : c.debug = true) {t t' : T} {v : Vector α w} {n : Nat}
    (h : blanketEnd c t = ok (some (v, n), t')) : n ≤ w := by
  simp only [blanketEnd] at h
  obtain ⟨p, -, h⟩ := bind_eq_ok.1 h
  obtain ⟨l, -, h⟩ := bind_eq_ok.1 h
  split at h
  · obtain ⟨x, -, h⟩ := bind_eq_ok.1 h
    obtain ⟨e, he, h⟩ := bind_eq_ok.1 h
    obtain ⟨ret, -, h⟩ := bind_eq_ok.1 h
    obtain ⟨t1, -, h⟩ := bind_eq_ok.1 h
    simp only [ok.injEq, Prod.mk.injEq, Option.some.injEq] at h
    rw [← h.1.2]
    unfold usub at he
    split at he
    · cases he; omega
    · simp at he
  · cases h

/-- Iterators over slices and other collections, in every state. -/
theorem smallTail_iter {A : Type} [SIMDSized A] [SIMDArray A α w] [Packable α]
    (hu : w * Packable.size α < c.usize) : SmallTail c (SIMDIter A α w) (Packable.size α) := by
  intro hd it v n it' h
  exact Nat.lt_of_le_of_lt (Nat.mul_le_mul_right _ (blanketEnd_small hd h)) hu

/-- Strided iterators. -/
theorem smallTail_stride {A : Type} [SIMDSized A] [SIMDArray A α w] [Packable α]
    (hu : w * Packable.size α < c.usize) : SmallTail c (PackedStride A α w) (Packable.size α) := by
  intro hd it v n it' h
  exact Nat.lt_of_le_of_lt (Nat.mul_le_mul_right _ (blanketEnd_small hd h)) hu

/-- Maps. -/
theorem smallTail_map {I σ : Type} {w' : Nat} [SIMDSized I] [SIMDIterator I α w] [Packable α]
    [Packable β] (hI : SmallTail c I (Packable.size α)) :
    SmallTail c (SIMDMap I σ α w β w') (Packable.size β) := by
  intro hd m v n m' h
  simp only [SIMDIterator.end_, SIMDMap.end_] at h
  obtain ⟨⟨r, it1⟩, he, h⟩ := bind_eq_ok.1 h
  cases r with
  | none => cases h
  | some p =>
    obtain ⟨v0, k⟩ := p
    obtain ⟨x, hx, h⟩ := bind_eq_ok.1 h
    obtain ⟨y, hy, h⟩ := bind_eq_ok.1 h
    obtain ⟨u, -, h⟩ := bind_eq_ok.1 h
    simp only [ok.injEq, Prod.mk.injEq, Option.some.injEq] at h
    have hk := hI hd _ _ _ _ he
    rw [umul_ok hk] at hx
    cases hx
    unfold udiv at hy
    split at hy
    · cases hy
    · cases hy
      rw [← h.1.2]
      exact Nat.lt_of_le_of_lt (Nat.div_mul_le_self _ _) hk

/-- Zips, from their first iterator. -/
theorem smallTail_zip {I R γ : Type} [SIMDSized I] [SIMDIterator I α w] [Packable α] [ZipRest R γ]
    (hI : SmallTail c I (Packable.size α)) : ZSmallTail c (Zip I R) := by
  intro hd z v n z' h
  simp only [SIMDZippedIterator.end_, Zip.end_] at h
  obtain ⟨p, -, h⟩ := bind_eq_ok.1 h
  obtain ⟨⟨r, it1⟩, he, h⟩ := bind_eq_ok.1 h
  cases r with
  | none => cases h
  | some q =>
    obtain ⟨v0, k⟩ := q
    obtain ⟨vs, -, h⟩ := bind_eq_ok.1 h
    simp only [ok.injEq, Prod.mk.injEq, Option.some.injEq] at h
    have hk := hI hd _ _ _ _ he
    rw [← h.1.2]
    exact hk

/-- Maps of zips. -/
theorem smallTail_zipMap {Z γ σ : Type} [SIMDZippedIterator Z γ] [Packable β]
    (hZ : ZSmallTail c Z) : SmallTail c (SIMDZipMap Z σ γ β w) (Packable.size β) := by
  intro hd m v n m' h
  simp only [SIMDIterator.end_, SIMDZipMap.end_] at h
  obtain ⟨⟨r, it1⟩, he, h⟩ := bind_eq_ok.1 h
  cases r with
  | none => cases h
  | some p =>
    obtain ⟨v0, k⟩ := p
    obtain ⟨x, hx, h⟩ := bind_eq_ok.1 h
    obtain ⟨y, hy, h⟩ := bind_eq_ok.1 h
    obtain ⟨u, -, h⟩ := bind_eq_ok.1 h
    simp only [ok.injEq, Prod.mk.injEq, Option.some.injEq] at h
    have hk := hZ hd _ _ _ _ he
    rw [umul_ok hk] at hx
    cases hx
    unfold udiv at hy
    split at hy
    · cases hy
    · cases hy
      rw [← h.1.2]
      exact Nat.lt_of_le_of_lt (Nat.div_mul_le_self _ _) hk

/-- **C149** for maps over slices, whatever their position: no hypothesis but that a vector fits in
memory. -/
theorem C149_slice_reduce {σ τ A : Type} {w' : Nat} [Packable α] [Packable β]
    (hu : w * Packable.size α < c.usize) (hs : 0 < Packable.size β)
    (fuel : Nat) (it : SIMDIter (Slice α w) α w) (start : A) (s : σ) (t : τ)
    (f : FnMut σ (Vector α w) (Vector β w')) (g : τ → A → Vector β w' → Res (A × τ)) :
    simdReduce c fuel (simdMap it s f) start t g =
      simdReduce c fuel it start (s, t) (mapReduceFn f g) >>= fun x =>
        ok (simdMap x.1 x.2.2.1 f, x.2.1, x.2.2.2) :=
  C149_reduce (smallTail_iter hu) hs fuel it start s t f g

end

/-- The sum of squares, as a map and a reduction, and as one reduction. -/
example : (simdReduce debug64 9 (simdMap (simdIter (w := 2) [1#8, 2, 3, 4, 5] #v[0, 0]) ()
      (pureFn fun v => v.map fun x => x * x)) (0#8) ()
      (fun st acc (v : Vector (BitVec 8) 2) => ok (acc + v[0] + v[1], st))).bind (fun r => ok r.2.1) =
    ok 55 ∧
    (simdReduce debug64 9 (simdIter (w := 2) [1#8, 2, 3, 4, 5] #v[0, 0]) (0#8) ((), ())
      (mapReduceFn (pureFn fun v => v.map fun x => x * x)
        (fun st acc (v : Vector (BitVec 8) 2) => ok (acc + v[0] + v[1], st)))).bind
        (fun r => ok r.2.1) = ok 55 := by decide +kernel

end Faster
