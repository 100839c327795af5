import Verif.Iters
/-
Model of `src/zip.rs`: lock-step iteration.

The macro `impl_iter_zip!` (src/zip.rs:223-303) is instantiated for tuples of 2
to 13 iterators (373-408). Its text treats the first iterator specially and
repeats one expression for each of the others. A tuple `(a, b, c)` is modelled
as the first iterator `a` and a right-nested list `(b, (c, ()))` of the others,
so one model covers all instantiations.
-/
namespace Faster
open Res SIMDSized SIMDIterable SIMDIterator

/-- The iterators `1, 2, …` of a zipped tuple, with vectors `γ`. -/
class ZipRest (R : Type) (γ : outParam Type) where
  /-- `self.0.len() != self.$n.len() || …` with the length of the first iterator
  given (src/zip.rs:228). -/
  lenDiffers : Cfg → R → Nat → Res Bool
  /-- `$(self.iters.$n.next_unchecked(pos)),*` (src/zip.rs:251). -/
  nextAll : Cfg → R → Nat → Res γ
  /-- `$(self.iters.$n.end_unchecked(pos, n)),*` (src/zip.rs:279). -/
  endAll : Cfg → R → Nat → Nat → Res γ
  /-- `$(self.iters.$n.default()),*` (src/zip.rs:299). -/
  defaultAll : R → γ

/-- No further iterator. -/
instance instZipRestUnit : ZipRest Unit Unit where
  lenDiffers _ _ _ := ok false
  nextAll _ _ _ := ok ()
  endAll _ _ _ _ := ok ()
  defaultAll _ := ()

/-- One more iterator. `next_unchecked`/`end_unchecked` take `&mut self` but the
only implementation (src/iters.rs:588-612) does not modify the iterator. -/
instance instZipRestCons {T R α γ : Type} {w : Nat} [SIMDSized T] [SIMDIterable T α w]
    [SIMDArray T α w] [ZipRest R γ] : ZipRest (T × R) (Vector α w × γ) where
  lenDiffers c r len := do
    let l ← SIMDIterable.len c r.1
    if len ≠ l then ok true else ZipRest.lenDiffers c r.2 len
  nextAll c r pos := do
    let v ← nextUnchecked c r.1 pos
    let vs ← ZipRest.nextAll c r.2 pos
    ok (v, vs)
  endAll c r pos n := do
    let v ← endUnchecked c r.1 pos n
    let vs ← ZipRest.endAll c r.2 pos n
    ok (v, vs)
  defaultAll r := (dflt r.1, ZipRest.defaultAll r.2)

/-- The zipped traits: `SIMDZippedObject` (src/zip.rs:59-68), `SIMDZippedIterable`
(72-125) with `ExactSizeIterator`, and `SIMDZippedIterator::end` (130-134).
`width` is the width of the first vector type, `size` its scalar size. -/
class SIMDZippedIterator (Z : Type) (γ : outParam Type) where
  width : Z → Nat
  size : Z → Nat
  next : Cfg → Z → Res (Option γ × Z)
  end_ : Cfg → Z → Res (Option (γ × Nat) × Z)
  len : Cfg → Z → Res Nat
  scalarPos : Cfg → Z → Res Nat
  advance : Cfg → Z → Nat → Res Z
  dflt : Z → γ
  /-- Default body (src/zip.rs:83-86): the number of *vectors*. -/
  scalarLen : Cfg → Z → Res Nat := len
  /-- Default body (src/zip.rs:77-79). -/
  vectorPos : Cfg → Z → Res Nat := fun c z => do udiv (← scalarPos c z) (width z)
  /-- Default body (src/zip.rs:90-92): a number of vectors, divided by the width. -/
  vectorLen : Cfg → Z → Res Nat := fun c z => do udiv (← scalarLen c z) (width z)

/-- `struct Zip` (src/zip.rs:42-44). -/
structure Zip (I R : Type) where
  first : I
  rest : R
deriving Repr, DecidableEq

section Zip
variable {I R α γ : Type} {w : Nat} [SIMDSized I] [SIMDIterator I α w] [Packable α] [ZipRest R γ]

/-- `IntoSIMDZip::zip` (src/zip.rs:227-232). -/
def zip (c : Cfg) (first : I) (rest : R) : Res (Zip I R) := do
  let l ← SIMDIterable.len c first
  if ← ZipRest.lenDiffers c rest l then panic else ok ⟨first, rest⟩

/-- `Iterator for Zip` (src/zip.rs:243-254). -/
def Zip.next (c : Cfg) (z : Zip I R) : Res (Option (Vector α w × γ) × Zip I R) := do
  let pos ← SIMDIterable.scalarPos c z.first
  let (r, first) ← SIMDIterable.next c z.first
  let z := { z with first := first }
  match r with
  | some v =>
    let vs ← ZipRest.nextAll c z.rest pos
    ok (some (v, vs), z)
  | none => ok (none, z)

/-- `SIMDZippedIterator::end` (src/zip.rs:275-281). -/
def Zip.end_ (c : Cfg) (z : Zip I R) : Res (Option ((Vector α w × γ) × Nat) × Zip I R) := do
  let pos ← SIMDIterable.scalarPos c z.first
  let (r, first) ← SIMDIterator.end_ c z.first
  let z := { z with first := first }
  match r with
  | some (v, n) =>
    let vs ← ZipRest.endAll c z.rest pos n
    ok (some ((v, vs), n), z)
  | none => ok (none, z)

/-- The impls of `impl_iter_zip!` for `Zip` (src/zip.rs:235-301). -/
instance instZip : SIMDZippedIterator (Zip I R) (Vector α w × γ) where
  width _ := w
  size _ := Packable.size α
  next := Zip.next
  end_ := Zip.end_
  len c z := SIMDIterable.len c z.first
  scalarPos c z := SIMDIterable.scalarPos c z.first
  advance c z amount := do ok { z with first := ← SIMDIterable.advance c z.first amount }
  dflt z := (SIMDIterable.dflt z.first, ZipRest.defaultAll z.rest)

end Zip

/-! ### Consumers of zipped iterators -/

section Consumers
variable {Z γ : Type} [SIMDZippedIterator Z γ]

/-- `SIMDZippedIterable::finalize` (src/zip.rs:99-102). -/
def zfinalize (c : Cfg) (z : Z) : Res Z := do
  let len ← SIMDZippedIterator.scalarLen c z
  let pos ← SIMDZippedIterator.scalarPos c z
  SIMDZippedIterator.advance c z (← usub c len pos)

/-- Loop of `simd_reduce` (src/zip.rs:213-215). -/
def zreduceLoop {A σ : Type} (c : Cfg) (func : σ → A → γ → Res (A × σ)) :
    (fuel : Nat) → Z → A → σ → Res (Z × A × σ)
  | 0, _, _, _ => hang
  | fuel + 1, z, acc, st => do
    let (r, z) ← SIMDZippedIterator.next c z
    match r with
    | none => ok (z, acc, st)
    | some v =>
      let (acc, st) ← func st acc v
      zreduceLoop c func fuel z acc st

/-- `SIMDZippedIterator::simd_reduce` (src/zip.rs:210-220). -/
def zsimdReduce {A σ : Type} (c : Cfg) (fuel : Nat) (z : Z) (start : A) (st : σ)
    (func : σ → A → γ → Res (A × σ)) : Res (Z × A × σ) := do
  let (z, acc, st) ← zreduceLoop c func fuel z start st
  let (r, z) ← SIMDZippedIterator.end_ c z
  match r with
  | some (v, _) =>
    let (acc, st) ← func st acc v
    ok (z, acc, st)
  | none => ok (z, acc, st)

/-- Loop of `simd_do_each` (src/zip.rs:151-153). -/
def zdoEachLoop {σ : Type} (c : Cfg) (func : FnMut σ γ Unit) :
    (fuel : Nat) → Z → σ → Res (Z × σ)
  | 0, _, _ => hang
  | fuel + 1, z, st => do
    let (r, z) ← SIMDZippedIterator.next c z
    match r with
    | none => ok (z, st)
    | some v =>
      let (_, st) ← func st v
      zdoEachLoop c func fuel z st

/-- `SIMDZippedIterator::simd_do_each` (src/zip.rs:149-157). -/
def zsimdDoEach {σ : Type} (c : Cfg) (fuel : Nat) (z : Z) (st : σ) (func : FnMut σ γ Unit) :
    Res (Z × σ) := do
  let (z, st) ← zdoEachLoop c func fuel z st
  let (r, z) ← SIMDZippedIterator.end_ c z
  match r with
  | some (v, _) =>
    let (_, st) ← func st v
    ok (z, st)
  | none => ok (z, st)

end Consumers

/-! ### `SIMDZipMap` -/

/-- `struct SIMDZipMap` (src/zip.rs:48-51). -/
structure SIMDZipMap (Z σ γ β : Type) (w' : Nat) where
  iter : Z
  st : σ
  func : FnMut σ γ (Vector β w')

section SIMDZipMap
variable {Z σ γ β : Type} {w' : Nat} [SIMDZippedIterator Z γ]

/-- `SIMDZippedIterator::simd_map` (src/zip.rs:138-144). -/
def zsimdMap (z : Z) (st : σ) (func : FnMut σ γ (Vector β w')) : SIMDZipMap Z σ γ β w' :=
  { iter := z, st := st, func := func }

/-- `SIMDSized for SIMDZipMap` (src/zip.rs:329-342). -/
instance instSizedZipMap : SIMDSized (SIMDZipMap Z σ γ β w') where
  scalarLen c m := SIMDZippedIterator.scalarLen c m.iter

/-- `Iterator for SIMDZipMap` (src/zip.rs:305-313). -/
def SIMDZipMap.next (c : Cfg) (m : SIMDZipMap Z σ γ β w') :
    Res (Option (Vector β w') × SIMDZipMap Z σ γ β w') := do
  let (r, z) ← SIMDZippedIterator.next c m.iter
  match r with
  | some v =>
    let (u, st) ← m.func m.st v
    ok (some u, { m with iter := z, st := st })
  | none => ok (none, { m with iter := z })

/-- `SIMDIterable for SIMDZipMap` (src/zip.rs:344-361), `ExactSizeIterator`
(315-321), and `SIMDSized::vector_len` (337-341), which is that of the zip. -/
instance instIterableZipMap [Packable β] : SIMDIterable (SIMDZipMap Z σ γ β w') β w' where
  next := SIMDZipMap.next
  len c m := SIMDZippedIterator.len c m.iter
  scalarPos c m := SIMDZippedIterator.scalarPos c m.iter
  advance c m amount := do ok { m with iter := ← SIMDZippedIterator.advance c m.iter amount }
  dflt _ := Packed.default
  vecLen c m := SIMDZippedIterator.vectorLen c m.iter

/-- `SIMDIterator for SIMDZipMap` (src/zip.rs:363-371). -/
def SIMDZipMap.end_ [Packable β] (c : Cfg) (m : SIMDZipMap Z σ γ β w') :
    Res (Option (Vector β w' × Nat) × SIMDZipMap Z σ γ β w') := do
  let (r, z) ← SIMDZippedIterator.end_ c m.iter
  match r with
  | some (v, n) =>
    let nr ← udiv (← umul c n (SIMDZippedIterator.size z)) (Packable.size β)
    let (u, st) ← m.func m.st v
    ok (some (u, nr), { m with iter := z, st := st })
  | none => ok (none, { m with iter := z })

instance instIteratorZipMap [Packable β] : SIMDIterator (SIMDZipMap Z σ γ β w') β w' where
  end_ := SIMDZipMap.end_

end SIMDZipMap
end Faster
