import Verif.Packed
/-
Model of `src/iters.rs`: the iterator traits and the iterators over slices,
maps, scalar views, unrolled views and the scalar adapter.

Rust traits become type classes. `&mut self` methods return the new `self`.
`ExactSizeIterator::len` and `Iterator::next` are part of `SIMDIterable`
(which has them as supertraits, src/iters.rs:30).
-/
namespace Faster
open Res

/-- `trait SIMDSized` (src/iters.rs:178-187): length in scalars. -/
class SIMDSized (A : Type) where
  scalarLen : Cfg → A → Res Nat

/-- `trait SIMDArray` (src/iters.rs:190-195). -/
class SIMDArray (A : Type) (α : outParam Type) (w : outParam Nat) [SIMDSized A] where
  load : Cfg → A → Nat → Res (Vector α w)
  loadUnchecked : Cfg → A → Nat → Res (Vector α w)
  loadScalar : Cfg → A → Nat → Res α
  loadScalarUnchecked : Cfg → A → Nat → Res α

/-- `trait SIMDArrayMut` (src/iters.rs:199-204). -/
class SIMDArrayMut (A : Type) (α : outParam Type) (w : outParam Nat) where
  store : Cfg → A → Vector α w → Nat → Res A
  storeUnchecked : Cfg → A → Vector α w → Nat → Res A
  storeScalar : Cfg → A → α → Nat → Res A
  storeScalarUnchecked : Cfg → A → α → Nat → Res A

/-- `trait SIMDIterable` (src/iters.rs:30-71) with its supertraits `Iterator`
(`next`) and `ExactSizeIterator` (`len`, in vectors). `dflt` is
`SIMDIterable::default`. -/
class SIMDIterable (I : Type) (α : outParam Type) (w : outParam Nat) [SIMDSized I] where
  next : Cfg → I → Res (Option (Vector α w) × I)
  len : Cfg → I → Res Nat
  scalarPos : Cfg → I → Res Nat
  advance : Cfg → I → Nat → Res I
  dflt : I → Vector α w
  /-- `vector_pos`, default body (src/iters.rs:36-38). -/
  vectorPos : Cfg → I → Res Nat := fun c it => do udiv (← scalarPos c it) w
  /-- `SIMDSized::vector_len`, default body (src/iters.rs:184-186). -/
  vecLen : Cfg → I → Res Nat := fun c it => do udiv (← SIMDSized.scalarLen c it) w

/-- `trait SIMDIterator` (src/iters.rs:76-81): adds `end`. -/
class SIMDIterator (I : Type) (α : outParam Type) (w : outParam Nat) [SIMDSized I]
    extends SIMDIterable I α w where
  end_ : Cfg → I → Res (Option (Vector α w × Nat) × I)

open SIMDSized SIMDIterable SIMDIterator

/-- `SIMDSized::vector_len` of an array: the default body (src/iters.rs:184-186). -/
def vectorLen {I : Type} [SIMDSized I] (w : Nat) (c : Cfg) (it : I) : Res Nat := do
  udiv (← scalarLen c it) w

/-- `SIMDIterable::finalize` (src/iters.rs:45-48). -/
def finalize {I α : Type} {w : Nat} [SIMDSized I] [SIMDIterable I α w] (c : Cfg) (it : I) :
    Res I := do
  let len ← scalarLen c it
  let pos ← scalarPos c it
  let e ← usub c len pos
  advance c it e

/-! ### Slices -/

/-- `Vec<S>`, `&[S]`, `&mut [S]` as SIMD arrays. Vectors of this element type
have `w` lanes on the target. -/
structure Slice (α : Type) (w : Nat) where
  elems : List α
deriving Repr, DecidableEq

/-- `SIMDSized` by `impl_iter!` (src/iters.rs:437-442). -/
instance {α : Type} {w : Nat} : SIMDSized (Slice α w) where
  scalarLen _ s := ok s.elems.length

/-- `SIMDArray` by `impl_iter!` (src/iters.rs:413-435). -/
instance {α : Type} {w : Nat} : SIMDArray (Slice α w) α w where
  load _ s offset := Packed.load s.elems offset
  loadUnchecked c s offset := do
    if c.debug then
      let t ← sliceFrom s.elems offset
      assert (t.length ≥ w)
    Packed.loadUnchecked c s.elems offset
  loadScalar _ s offset := index s.elems offset
  loadScalarUnchecked c s offset := do
    debugAssert c (offset < s.elems.length)
    getUnchecked s.elems offset

/-- `SIMDArrayMut for &mut [S]` (src/iters.rs:311-332). -/
instance {α : Type} {w : Nat} : SIMDArrayMut (Slice α w) α w where
  store _ s v offset := do ok ⟨← Packed.store v s.elems offset⟩
  storeUnchecked c s v offset := do ok ⟨← Packed.storeUnchecked c v s.elems offset⟩
  storeScalar _ s x offset := do ok ⟨← indexSet s.elems offset x⟩
  storeScalarUnchecked c s x offset := do
    debugAssert c (offset < s.elems.length)
    ok ⟨← setUnchecked s.elems offset x⟩

/-! ### Blanket implementations for `SIMDIterable + SIMDArray` -/

section Blanket
variable {T α : Type} {w : Nat} [SIMDSized T] [SIMDIterable T α w] [SIMDArray T α w]

/-- Element-wise loop of `end` / `end_unchecked` for elements `i, …, i+n-1`
(src/iters.rs:536-540 and 605-607). -/
def elementLoop (c : Cfg) (t : T) (emptyAmt : Nat) : (n i : Nat) → Vector α w → Res (Vector α w)
  | 0, _, ret => ok ret
  | n + 1, i, ret => do
    let idx ← uadd c i emptyAmt
    let x ← SIMDArray.loadScalarUnchecked c t i
    let ret ← Packed.replaceUnchecked c ret idx x
    elementLoop c t emptyAmt n (i + 1) ret

/-- The vector built by `end` (src/iters.rs:531-541) and `end_unchecked`
(598-609): right-align the elements from `pos` on. -/
def endVec (c : Cfg) (t : T) (len pos emptyAmt : Nat) : Res (Vector α w) := do
  if w < len then
    let ret ← SIMDArray.loadUnchecked c t (← usub c len w)
    Packed.mergePartitioned c (dflt t) ret emptyAmt
  else
    elementLoop c t emptyAmt (len - pos) pos (dflt t)

/-- Blanket `SIMDIterator::end` (src/iters.rs:525-549). -/
def blanketEnd (c : Cfg) (t : T) : Res (Option (Vector α w × Nat) × T) := do
  let pos ← scalarPos c t
  let len ← scalarLen c t
  if pos < len then
    let emptyAmt ← usub c w (← usub c len pos)
    let ret ← endVec c t len pos emptyAmt
    let t ← finalize c t
    ok (some (ret, emptyAmt), t)
  else
    ok (none, t)

/-- Blanket `UnsafeIterator::next_unchecked` (src/iters.rs:590-593). -/
def nextUnchecked (c : Cfg) (t : T) (offset : Nat) : Res (Vector α w) := do
  if c.debug then
    let e ← uadd c offset w
    let len ← scalarLen c t
    assert (e ≤ len)
  SIMDArray.loadUnchecked c t offset

/-- Blanket `UnsafeIterator::end_unchecked` (src/iters.rs:596-610). -/
def endUnchecked (c : Cfg) (t : T) (offset emptyAmt : Nat) : Res (Vector α w) := do
  let len ← scalarLen c t
  debugAssert c (offset < len)
  if c.debug then
    let e ← usub c w (← usub c len offset)
    assert (emptyAmt = e)
  endVec c t len offset emptyAmt

end Blanket

/-! ### `SIMDIter` -/

/-- `struct SIMDIter` (src/iters.rs:209-213). -/
structure SIMDIter (A α : Type) (w : Nat) where
  position : Nat
  data : A
  default : Vector α w
deriving Repr, DecidableEq

section SIMDIter
variable {A α : Type} {w : Nat} [SIMDSized A] [SIMDArray A α w]

/-- `SIMDSized for SIMDIter` (src/iters.rs:501-506). -/
instance instSizedSIMDIter : SIMDSized (SIMDIter A α w) where
  scalarLen c it := scalarLen c it.data

/-- `SIMDArray for SIMDIter` (src/iters.rs:479-499). -/
instance instArraySIMDIter : SIMDArray (SIMDIter A α w) α w where
  load c it offset := SIMDArray.load c it.data offset
  loadUnchecked c it offset := SIMDArray.loadUnchecked c it.data offset
  loadScalar c it offset := SIMDArray.loadScalar c it.data offset
  loadScalarUnchecked c it offset := SIMDArray.loadScalarUnchecked c it.data offset

/-- `SIMDIterable::advance` (src/iters.rs:515-517). -/
def SIMDIter.advance (c : Cfg) (it : SIMDIter A α w) (amount : Nat) : Res (SIMDIter A α w) := do
  ok { it with position := ← uadd c it.position amount }

/-- `Iterator::next` (src/iters.rs:467-476). -/
def SIMDIter.next (c : Cfg) (it : SIMDIter A α w) :
    Res (Option (Vector α w) × SIMDIter A α w) := do
  let e ← uadd c it.position w
  let len ← scalarLen c it
  if e ≤ len then
    let ret ← SIMDArray.loadUnchecked c it it.position
    let it ← SIMDIter.advance c it w
    ok (some ret, it)
  else
    ok (none, it)

/-- `SIMDIterable for SIMDIter` (src/iters.rs:508-523) and `ExactSizeIterator`
(src/iters.rs:456-461). -/
instance instIterableSIMDIter : SIMDIterable (SIMDIter A α w) α w where
  next := SIMDIter.next
  len c it := do udiv (← scalarLen c it.data) w
  scalarPos _ it := ok it.position
  advance := SIMDIter.advance
  dflt it := it.default

/-- `SIMDIterator for SIMDIter` by the blanket impl (src/iters.rs:525). -/
instance instIteratorSIMDIter : SIMDIterator (SIMDIter A α w) α w where
  end_ := blanketEnd

end SIMDIter

/-- `simd_iter` / `into_simd_iter` / `simd_iter_mut` (src/into_iters.rs:54-112):
all five implementations build the same value. -/
def simdIter {α : Type} {w : Nat} (data : List α) (default : Vector α w) :
    SIMDIter (Slice α w) α w :=
  { data := ⟨data⟩, position := 0, default := default }

/-! ### `SIMDMap` -/

/-- An `FnMut` closure: a function from its captured state and its argument to
its result and the new captured state; it may panic. -/
abbrev FnMut (σ β γ : Type) := σ → β → Res (γ × σ)

/-- `struct SIMDMap` (src/iters.rs:217-220); `st` is the captured state of the
closure `func`. -/
structure SIMDMap (I σ α : Type) (w : Nat) (β : Type) (w' : Nat) where
  iter : I
  st : σ
  func : FnMut σ (Vector α w) (Vector β w')

section SIMDMap
variable {I σ α β : Type} {w w' : Nat} [SIMDSized I]

/-- `SIMDIterator::simd_map` (src/iters.rs:85-91). -/
def simdMap [SIMDIterator I α w] (iter : I) (st : σ) (func : FnMut σ (Vector α w) (Vector β w')) :
    SIMDMap I σ α w β w' :=
  { iter := iter, st := st, func := func }

/-- `SIMDSized for SIMDMap` (src/iters.rs:642-648): note that it returns
`self.iter.len()`, which is measured in vectors. -/
instance instSizedSIMDMap [SIMDIterable I α w] : SIMDSized (SIMDMap I σ α w β w') where
  scalarLen c m := SIMDIterable.len c m.iter

/-- `Iterator for SIMDMap` (src/iters.rs:614-622). -/
def SIMDMap.next [SIMDIterable I α w] (c : Cfg) (m : SIMDMap I σ α w β w') :
    Res (Option (Vector β w') × SIMDMap I σ α w β w') := do
  let (r, iter) ← SIMDIterable.next c m.iter
  match r with
  | some v =>
    let (u, st) ← m.func m.st v
    ok (some u, { m with iter := iter, st := st })
  | none => ok (none, { m with iter := iter })

/-- `SIMDIterable for SIMDMap` (src/iters.rs:650-667), `ExactSizeIterator`
(src/iters.rs:624-629). -/
instance instIterableSIMDMap [SIMDIterable I α w] [Packable β] :
    SIMDIterable (SIMDMap I σ α w β w') β w' where
  next := SIMDMap.next
  len c m := SIMDIterable.len c m.iter
  scalarPos c m := SIMDIterable.scalarPos c m.iter
  advance c m amount := do ok { m with iter := ← SIMDIterable.advance c m.iter amount }
  dflt _ := Packed.default

/-- `SIMDIterator for SIMDMap` (src/iters.rs:669-677). -/
def SIMDMap.end_ [SIMDIterator I α w] [Packable α] [Packable β] (c : Cfg)
    (m : SIMDMap I σ α w β w') : Res (Option (Vector β w' × Nat) × SIMDMap I σ α w β w') := do
  let (r, iter) ← SIMDIterator.end_ c m.iter
  match r with
  | some (v, n) =>
    let nr ← udiv (← umul c n (Packable.size α)) (Packable.size β)
    let (u, st) ← m.func m.st v
    ok (some (u, nr), { m with iter := iter, st := st })
  | none => ok (none, { m with iter := iter })

instance instIteratorSIMDMap [SIMDIterator I α w] [Packable α] [Packable β] :
    SIMDIterator (SIMDMap I σ α w β w') β w' where
  end_ := SIMDMap.end_

end SIMDMap

/-! ### Consumers: `simd_do_each`, `simd_reduce` -/

section Consumers
variable {I α : Type} {w : Nat} [SIMDSized I] [SIMDIterator I α w]

/-- The `while let Some(v) = self.next()` loop of `simd_reduce`
(src/iters.rs:160-162); with `A = ()` and a closure with state it is also the
loop of `simd_do_each` (98-100). -/
def reduceLoop {A σ : Type} (c : Cfg) (func : σ → A → Vector α w → Res (A × σ)) :
    (fuel : Nat) → I → A → σ → Res (I × A × σ)
  | 0, _, _, _ => hang
  | fuel + 1, it, acc, st => do
    let (r, it) ← SIMDIterable.next c it
    match r with
    | none => ok (it, acc, st)
    | some v =>
      let (acc, st) ← func st acc v
      reduceLoop c func fuel it acc st

/-- `SIMDIterator::simd_reduce` (src/iters.rs:157-167). Returns also the
iterator and the closure's state after the call. -/
def simdReduce {A σ : Type} (c : Cfg) (fuel : Nat) (it : I) (start : A) (st : σ)
    (func : σ → A → Vector α w → Res (A × σ)) : Res (I × A × σ) := do
  let (it, acc, st) ← reduceLoop c func fuel it start st
  let (r, it) ← SIMDIterator.end_ c it
  match r with
  | some (v, _) =>
    let (acc, st) ← func st acc v
    ok (it, acc, st)
  | none => ok (it, acc, st)

/-- Loop of `simd_do_each` (src/iters.rs:98-100). -/
def doEachLoop {σ : Type} (c : Cfg) (func : FnMut σ (Vector α w) Unit) :
    (fuel : Nat) → I → σ → Res (I × σ)
  | 0, _, _ => hang
  | fuel + 1, it, st => do
    let (r, it) ← SIMDIterable.next c it
    match r with
    | none => ok (it, st)
    | some v =>
      let (_, st) ← func st v
      doEachLoop c func fuel it st

/-- `SIMDIterator::simd_do_each` (src/iters.rs:96-104). -/
def simdDoEach {σ : Type} (c : Cfg) (fuel : Nat) (it : I) (st : σ)
    (func : FnMut σ (Vector α w) Unit) : Res (I × σ) := do
  let (it, st) ← doEachLoop c func fuel it st
  let (r, it) ← SIMDIterator.end_ c it
  match r with
  | some (v, _) =>
    let (_, st) ← func st v
    ok (it, st)
  | none => ok (it, st)

end Consumers

/-! ### `IntoScalar` -/

section IntoScalar
variable {I α : Type} {w : Nat} [SIMDSized I] [SIMDIterator I α w]

/-- Loop of `scalar_fill` (src/iters.rs:741-745), and of `scalar_collect`
(711-715) with `Option` cells. `inj` turns an element into a cell. Result:
iterator, buffer, `offset`, `lastvec`. -/
def fillLoop {κ : Type} (c : Cfg) (inj : α → κ) :
    (fuel : Nat) → I → List κ → Nat → Vector α w → Res (I × List κ × Nat × Vector α w)
  | 0, _, _, _, _ => hang
  | fuel + 1, it, buf, offset, lastvec => do
    let (r, it) ← SIMDIterable.next c it
    match r with
    | none => ok (it, buf, offset, lastvec)
    | some vec =>
      let buf ← Packed.storeUnchecked c (vec.map inj) buf offset
      let offset ← uadd c offset w
      fillLoop c inj fuel it buf offset vec

/-- Element-wise store of the partial vector (src/iters.rs:724-726, 756-760)
for `i, …, i+n-1`. -/
def fillTailLoop {κ : Type} (c : Cfg) (inj : α → κ) (p : Vector α w) (n offset : Nat) :
    (k i : Nat) → List κ → Res (List κ)
  | 0, _, buf => ok buf
  | k + 1, i, buf => do
    let x ← Packed.extractUnchecked c p (← uadd c i n)
    let buf ← indexSet buf (← uadd c offset i) (inj x)
    fillTailLoop c inj p n offset k (i + 1) buf

/-- `if let Some((p, n)) = self.end()` part of `scalar_fill`
(src/iters.rs:747-761) and of `scalar_collect` (718-727): stores the partial
vector and repairs the elements it overwrote. -/
def fillTail {κ : Type} (c : Cfg) (inj : α → κ) (p : Vector α w) (n offset : Nat)
    (lastvec : Vector α w) (buf : List κ) : Res (List κ) := do
  if offset > 0 then
    let buf ← Packed.storeUnchecked c (p.map inj) buf (← usub c offset n)
    Packed.storeUnchecked c (lastvec.map inj) buf (← usub c offset w)
  else
    fillTailLoop c inj p n offset (← usub c w n) 0 buf

/-- `IntoScalar::scalar_fill` (src/iters.rs:737-765). Returns the iterator and
the buffer after the call. -/
def scalarFill [Packable α] (c : Cfg) (fuel : Nat) (it : I) (fill : List α) :
    Res (I × List α) := do
  let (it, fill, offset, lastvec) ← fillLoop c id fuel it fill 0 Packed.default
  let (r, it) ← SIMDIterator.end_ c it
  match r with
  | some (p, n) =>
    let fill ← fillTail c id p n offset lastvec fill
    ok (it, fill)
  | none => ok (it, fill)

/-- `IntoScalar::scalar_collect` (src/iters.rs:704-734). The elements of the
result are `some x` when written and `none` when uninitialised. -/
def scalarCollect [Packable α] (c : Cfg) (fuel : Nat) (it : I) :
    Res (I × List (Option α)) := do
  let cap ← umul c (← uadd c (← SIMDIterable.len c it) 1) w
  let ret : RVec α := RVec.withCapacity cap
  let ret ← ret.setLen (← umul c (← uadd c (← SIMDIterable.len c it) 1) w)
  let (it, buf, offset, lastvec) ← fillLoop c some fuel it ret.slice 0 Packed.default
  let (r, it) ← SIMDIterator.end_ c it
  match r with
  | some (p, n) =>
    let buf ← fillTail c some p n offset lastvec buf
    let ret := ret.putSlice buf
    let ret ← ret.setLen (← usub c (← uadd c w offset) n)
    ok (it, ret.slice)
  | none =>
    let ret := ret.putSlice buf
    let ret ← ret.setLen (← umul c (← SIMDIterable.len c it) w)
    ok (it, ret.slice)

/-- Loop of `scalar_fill_all` (src/iters.rs:783-786). -/
def fillAllLoop {κ : Type} (c : Cfg) (inj : α → κ) :
    (fuel : Nat) → I → List κ → Nat → Res (I × List κ × Nat)
  | 0, _, _, _ => hang
  | fuel + 1, it, buf, offset => do
    let (r, it) ← SIMDIterable.next c it
    match r with
    | none => ok (it, buf, offset)
    | some vec =>
      let buf ← Packed.storeUnchecked c (vec.map inj) buf offset
      let offset ← uadd c offset w
      fillAllLoop c inj fuel it buf offset

/-- `IntoScalar::scalar_fill_all` (src/iters.rs:780-793), on cells `κ`. -/
def scalarFillAllCells {κ : Type} (c : Cfg) (inj : α → κ) (fuel : Nat) (it : I) (fill : List κ) :
    Res (I × List κ) := do
  let (it, fill, offset) ← fillAllLoop c inj fuel it fill 0
  let (r, it) ← SIMDIterator.end_ c it
  match r with
  | some (vec, _) =>
    let fill ← Packed.storeUnchecked c (vec.map inj) fill offset
    ok (it, fill)
  | none => ok (it, fill)

/-- `IntoScalar::scalar_fill_all` (src/iters.rs:780-793). -/
def scalarFillAll (c : Cfg) (fuel : Nat) (it : I) (fill : List α) : Res (I × List α) :=
  scalarFillAllCells c id fuel it fill

/-- `IntoScalar::scalar_collect_all` (src/iters.rs:769-777). -/
def scalarCollectAll (c : Cfg) (fuel : Nat) (it : I) : Res (I × List (Option α)) := do
  let cap ← umul c (← uadd c (← SIMDIterable.len c it) 1) w
  let ret : RVec α := RVec.withCapacity cap
  let ret ← ret.setLen (← SIMDIterable.len c it)
  let (it, s) ← scalarFillAllCells c some fuel it ret.slice
  ok (it, (ret.putSlice s).slice)

end IntoScalar

/-! ### `simd_for_each` -/

/-- Code which mutates a place `S` and may stop early: the contents of the
place survive a panic (the caller of a function which unwinds can still look at
the slice it lent). -/
def MutM (S : Type) (α : Type) := S → Res α × S

namespace MutM
variable {S α β : Type}

/-- Return a value. -/
def pure (a : α) : MutM S α := fun s => (ok a, s)

/-- Sequencing. -/
def bind (x : MutM S α) (f : α → MutM S β) : MutM S β := fun s =>
  match x s with
  | (ok a, s') => f a s'
  | (Res.panic, s') => (Res.panic, s')
  | (ub, s') => (ub, s')
  | (hang, s') => (hang, s')

instance : Monad (MutM S) where
  pure := MutM.pure
  bind := MutM.bind

/-- Read the place. -/
def get : MutM S S := fun s => (ok s, s)

/-- A computation which does not touch the place. -/
def lift (x : Res α) : MutM S α := fun s => (x, s)

/-- A `&mut self` method; if it panics it leaves the place as it was. -/
def call (f : S → Res (α × S)) : MutM S α := fun s =>
  match f s with
  | ok (a, s') => (ok a, s')
  | Res.panic => (Res.panic, s)
  | ub => (ub, s)
  | hang => (hang, s)

/-- A `&mut self` method without result. -/
def modify (f : S → Res S) : MutM S Unit := call (fun s => do ok ((), ← f s))

end MutM

section ForEach
variable {A α : Type} {w : Nat} [SIMDSized A] [SIMDArray A α w] [SIMDArrayMut A α w]

/-- `self.data.store_unchecked(v, offset)`. -/
def SIMDIter.dataStoreUnchecked (c : Cfg) (v : Vector α w) (offset : Nat)
    (it : SIMDIter A α w) : Res (SIMDIter A α w) := do
  ok { it with data := ← SIMDArrayMut.storeUnchecked c it.data v offset }

/-- `self.data.store_scalar_unchecked(x, offset)`. -/
def SIMDIter.dataStoreScalarUnchecked (c : Cfg) (x : α) (offset : Nat)
    (it : SIMDIter A α w) : Res (SIMDIter A α w) := do
  ok { it with data := ← SIMDArrayMut.storeScalarUnchecked c it.data x offset }

/-- First loop of `simd_for_each` (src/iters.rs:556-561); returns `lastvec` and
the closure's state. -/
def forEachLoop {σ : Type} (c : Cfg) (func : FnMut σ (Vector α w) (Vector α w)) :
    (fuel : Nat) → Vector α w → σ → MutM (SIMDIter A α w) (Vector α w × σ)
  | 0, _, _ => MutM.lift hang
  | fuel + 1, lastvec, st => do
    let r ← MutM.call (SIMDIterable.next c)
    match r with
    | none => pure (lastvec, st)
    | some v =>
      let (v, st) ← MutM.lift (func st v)
      let it ← MutM.get
      let offset ← MutM.lift (do usub c (← SIMDIterable.scalarPos c it) w)
      MutM.modify (SIMDIter.dataStoreUnchecked c v offset)
      forEachLoop c func fuel v st

/-- Element-wise store loop of `simd_for_each` (src/iters.rs:574-576). -/
def forEachTailLoop (c : Cfg) (p : Vector α w) (n offset : Nat) :
    (k i : Nat) → MutM (SIMDIter A α w) Unit
  | 0, _ => pure ()
  | k + 1, i => do
    let x ← MutM.lift (do Packed.extractUnchecked c p (← uadd c i n))
    let o ← MutM.lift (uadd c offset i)
    MutM.modify (SIMDIter.dataStoreScalarUnchecked c x o)
    forEachTailLoop c p n offset k (i + 1)

/-- `SIMDIteratorMut::simd_for_each` for `SIMDIter` (src/iters.rs:552-579). The
closure `FnMut(&mut V)` is a function from the old to the new vector. The
result is the closure's final state; the place is the iterator, whose `data`
field is the slice being modified. -/
def simdForEach {σ : Type} [Packable α] (c : Cfg) (fuel : Nat) (st : σ)
    (func : FnMut σ (Vector α w) (Vector α w)) : MutM (SIMDIter A α w) σ := do
  let (lastvec, st) ← forEachLoop c func fuel Packed.default st
  let it ← MutM.get
  let offset ← MutM.lift (SIMDIterable.scalarPos c it)
  let r ← MutM.call (SIMDIterator.end_ c)
  match r with
  | none => pure st
  | some (p, n) =>
    let (p, st) ← MutM.lift (func st p)
    let it ← MutM.get
    let len ← MutM.lift (scalarLen c it)
    if w < len then
      MutM.modify (fun it => do SIMDIter.dataStoreUnchecked c p (← usub c offset n) it)
      MutM.modify (fun it => do SIMDIter.dataStoreUnchecked c lastvec (← usub c offset w) it)
      pure st
    else
      let k ← MutM.lift (usub c w n)
      forEachTailLoop c p n offset k 0
      pure st

end ForEach

/-! ### `Unpacked` -/

/-- `struct Unpacked` (src/iters.rs:336-338). -/
structure Unpacked (T : Type) where
  iter : T
deriving Repr, DecidableEq

section Unpacked
variable {T α : Type} {w : Nat} [SIMDSized T] [SIMDIterable T α w] [SIMDArray T α w]

/-- `SIMDIterable::unpack` (src/iters.rs:55-59). -/
def unpack (it : T) : Unpacked T := { iter := it }

/-- `Iterator for Unpacked` (src/iters.rs:340-353). -/
def Unpacked.next (c : Cfg) (u : Unpacked T) : Res (Option α × Unpacked T) := do
  let pos ← scalarPos c u.iter
  let len ← scalarLen c u.iter
  if pos < len then
    let ret ← SIMDArray.loadScalarUnchecked c u.iter (← scalarPos c u.iter)
    let iter ← SIMDIterable.advance c u.iter 1
    ok (some ret, { u with iter := iter })
  else
    ok (none, u)

/-- `Unpacked::pack` (src/iters.rs:357-359). -/
def Unpacked.pack (u : Unpacked T) : T := u.iter

end Unpacked

/-! ### `Unrolled` -/

/-- `struct Unrolled` (src/iters.rs:364-368). The borrowed iterator is part of
the state. -/
structure Unrolled (T α : Type) (w : Nat) where
  iter : T
  amt : Nat
  scratch : Vector (Vector α w) 8
deriving Repr, DecidableEq

/-- The slice `from_raw_parts(scratch.as_mut_ptr(), len)` returned by
`Unrolled::next`: a pointer to the start of `scratch` and a length. -/
structure ScratchRef where
  len : Nat
deriving Repr, DecidableEq

section Unrolled
variable {T α : Type} {w : Nat} [SIMDSized T] [SIMDIterator T α w]

/-- `SIMDIterable::unroll` (src/iters.rs:63-70). -/
def unroll [Packable α] (it : T) (amt : Nat) : Res (Unrolled T α w) := do
  assert (amt ≤ 8)
  ok { iter := it, amt := amt, scratch := Vector.replicate 8 Packed.default }

/-- Contents of the slice `r` when the `Unrolled` value is in state `u`. -/
def ScratchRef.read (u : Unrolled T α w) (r : ScratchRef) : List (Vector α w) :=
  u.scratch.toList.take r.len

/-- `Unrolled::chunk_len` (src/iters.rs:372-374). -/
def Unrolled.chunkLen (u : Unrolled T α w) : Nat := u.amt

/-- `Unrolled::chunk_pos` (src/iters.rs:377-379). -/
def Unrolled.chunkPos (c : Cfg) (u : Unrolled T α w) : Res Nat := do
  udiv (← SIMDIterable.vectorPos c u.iter) u.chunkLen

/-- Loop of `Unrolled::next` (src/iters.rs:388-395); `k = amt - i`. -/
def Unrolled.nextLoop (c : Cfg) : (k i : Nat) → Unrolled T α w → Res (Nat × Unrolled T α w)
  | 0, i, u => ok (i, u)
  | k + 1, i, u => do
    let (r, iter) ← SIMDIterable.next c u.iter
    let u := { u with iter := iter }
    match r with
    | some vec =>
      if h : i < 8 then
        Unrolled.nextLoop c k (i + 1) { u with scratch := u.scratch.set i vec }
      else panic
    | none => ok (i, u)

/-- `Iterator for Unrolled` (src/iters.rs:386-403). -/
def Unrolled.next (c : Cfg) (u : Unrolled T α w) :
    Res (Option ScratchRef × Unrolled T α w) := do
  let (i, u) ← Unrolled.nextLoop c u.amt 0 u
  if i > 0 then ok (some ⟨i⟩, u) else ok (none, u)

end Unrolled

/-! ### `SIMDAdapter` -/

/-- `struct SIMDAdapter` (src/iters.rs:225-230). The wrapped
`ExactSizeIterator` is the list of scalars it will still produce. -/
structure SIMDAdapter (α : Type) (w : Nat) where
  iter : List α
  scratch : Vector α w
  default : Vector α w
  position : Nat
deriving Repr, DecidableEq

section SIMDAdapter
variable {α : Type} {w : Nat}

/-- `SIMDSized for SIMDAdapter` (src/iters.rs:287-292): the number of scalars
*remaining* in the wrapped iterator. -/
instance instSizedSIMDAdapter : SIMDSized (SIMDAdapter α w) where
  scalarLen _ a := ok a.iter.length

/-- `SIMDAdapter::advance` (src/iters.rs:301-303). -/
def SIMDAdapter.advance (c : Cfg) (a : SIMDAdapter α w) (amount : Nat) : Res (SIMDAdapter α w) := do
  ok { a with position := ← uadd c a.position amount }

/-- Loop of `SIMDAdapter::next` (src/iters.rs:245-249) for
`offset, …, offset+n-1`. -/
def SIMDAdapter.nextLoop (c : Cfg) : (n offset : Nat) → SIMDAdapter α w → Res (SIMDAdapter α w)
  | 0, _, a => ok a
  | n + 1, offset, a =>
    match a.iter with
    | [] => panic  -- `unwrap` of `None`
    | x :: rest => do
      let scratch ← Packed.replaceUnchecked c a.scratch offset x
      SIMDAdapter.nextLoop c n (offset + 1) { a with iter := rest, scratch := scratch }

/-- `Iterator for SIMDAdapter` (src/iters.rs:241-256). -/
def SIMDAdapter.next (c : Cfg) (a : SIMDAdapter α w) :
    Res (Option (Vector α w) × SIMDAdapter α w) := do
  let e ← uadd c a.position w
  let len ← scalarLen c a
  if e ≤ len then
    let a ← SIMDAdapter.nextLoop c w 0 a
    let a ← SIMDAdapter.advance c a w
    ok (some a.scratch, a)
  else ok (none, a)

/-- `SIMDIterable for SIMDAdapter` (src/iters.rs:294-309), `ExactSizeIterator`
(280-285). -/
instance instIterableSIMDAdapter : SIMDIterable (SIMDAdapter α w) α w where
  next := SIMDAdapter.next
  len _ a := udiv a.iter.length w
  scalarPos _ a := ok a.position
  advance := SIMDAdapter.advance
  dflt a := a.default

/-- Loop of `SIMDAdapter::end` (src/iters.rs:266-271) over the remaining
scalars. -/
def SIMDAdapter.endLoop (c : Cfg) : List α → Nat → Vector α w → Res (Vector α w × Nat)
  | [], offset, scratch => ok (scratch, offset)
  | item :: rest, offset, scratch => do
    let scratch ← Packed.replaceUnchecked c scratch offset item
    let offset ← usub c offset 1
    SIMDAdapter.endLoop c rest offset scratch

/-- `SIMDIterator for SIMDAdapter` (src/iters.rs:259-278). -/
def SIMDAdapter.end_ (c : Cfg) (a : SIMDAdapter α w) :
    Res (Option (Vector α w × Nat) × SIMDAdapter α w) := do
  let len ← scalarLen c a
  if a.position < len then
    let (scratch, offset) ← SIMDAdapter.endLoop c a.iter (← usub c w 1) a.default
    let a := { a with iter := [], scratch := scratch }
    let a ← finalize c a
    ok (some (a.scratch, offset), a)
  else ok (none, a)

instance instIteratorSIMDAdapter : SIMDIterator (SIMDAdapter α w) α w where
  end_ := SIMDAdapter.end_

end SIMDAdapter

end Faster
