import Verif.Iters
import Verif.Zip
import Verif.Stride
/-
What a caller sees who catches a panic (`std::panic::catch_unwind`): the iterator and the buffer
were lent by `&mut` and keep the changes made before the panic. The functions here are those of
`Verif/Iters.lean` and `Verif/Zip.lean` with these places kept; `C117_same_…` prove that they
agree otherwise.

Simplification: the captured state of a closure which panics is left as it was before the call.
-/
namespace Faster
open Res SIMDSized SIMDIterable SIMDIterator

namespace MutM
variable {S B α : Type}

/-- Code which uses the first place only. -/
def onFst (x : MutM S α) : MutM (S × B) α := fun s => ((x s.1).1, ((x s.1).2, s.2))

/-- Code which uses the second place only. -/
def onSnd (x : MutM B α) : MutM (S × B) α := fun s => ((x s.2).1, (s.1, (x s.2).2))

/-- What a caller sees who does not catch panics. -/
def obs (x : MutM S α) (s : S) : Res (α × S) := (x s).1 >>= fun a => ok (a, (x s).2)

end MutM

/-- `next` and `end` of an iterator, with the iterator after a panic. -/
class Unwind (I : Type) (α : outParam Type) (w : outParam Nat) where
  nextU : Cfg → MutM I (Option (Vector α w))
  endU : Cfg → MutM I (Option (Vector α w × Nat))

/-- The same for zips. -/
class UnwindZ (Z : Type) (γ : outParam Type) where
  nextU : Cfg → MutM Z (Option γ)
  endU : Cfg → MutM Z (Option (γ × Nat))

/-- `SIMDIter` (src/iters.rs:467-476, 525-546): `advance` is the last step, so a panic leaves the
iterator unchanged. -/
instance instUnwindIter {A α : Type} {w : Nat} [SIMDSized A] [SIMDArray A α w] :
    Unwind (SIMDIter A α w) α w where
  nextU c := MutM.call (SIMDIterable.next c)
  endU c := MutM.call (SIMDIterator.end_ c)

/-- `PackedStride` (src/stride.rs:30-48, src/iters.rs:525-546): likewise. -/
instance instUnwindStride {A α : Type} {w : Nat} [Packable α] [SIMDSized A]
    [SIMDArray A α w] : Unwind (PackedStride A α w) α w where
  nextU c := MutM.call (SIMDIterable.next c)
  endU c := MutM.call (SIMDIterator.end_ c)

section SIMDMap
variable {I σ α β : Type} {w w' : Nat}

/-- `self.iter` of a map. -/
def SIMDMap.onIter {r : Type} (x : MutM I r) : MutM (SIMDMap I σ α w β w') r :=
  fun m => ((x m.iter).1, { m with iter := (x m.iter).2 })

/-- `(self.func)(v)`. -/
def SIMDMap.callU (v : Vector α w) : MutM (SIMDMap I σ α w β w') (Vector β w') :=
  MutM.call fun m => do
    let (u, st) ← m.func m.st v
    ok (u, { m with st := st })

/-- `next` (src/iters.rs:614-622) and `end` (669-677) of a map: the inner iterator has moved on
when the closure is called. -/
instance instUnwindMap [Unwind I α w] [Packable α] [Packable β] :
    Unwind (SIMDMap I σ α w β w') β w' where
  nextU c := do
    let r ← SIMDMap.onIter (Unwind.nextU c)
    match r with
    | some v =>
      let u ← SIMDMap.callU v
      pure (some u)
    | none => pure none
  endU c := do
    let r ← SIMDMap.onIter (Unwind.endU c)
    match r with
    | some (v, n) =>
      let nr ← MutM.lift (do udiv (← umul c n (Packable.size α)) (Packable.size β))
      let u ← SIMDMap.callU v
      pure (some (u, nr))
    | none => pure none

end SIMDMap

section Zip
variable {I R α γ : Type} {w : Nat} [SIMDSized I] [SIMDIterator I α w] [Unwind I α w] [ZipRest R γ]

/-- The first iterator of a zip. -/
def Zip.onFirst {r : Type} (x : MutM I r) : MutM (Zip I R) r :=
  fun z => ((x z.first).1, { z with first := (x z.first).2 })

/-- `next` (src/zip.rs:248-253) and `end` (275-281) of a zip: the first iterator has moved on when
the others are read. -/
instance instUnwindZip : UnwindZ (Zip I R) (Vector α w × γ) where
  nextU c := do
    let z ← MutM.get
    let pos ← MutM.lift (SIMDIterable.scalarPos c z.first)
    let r ← Zip.onFirst (Unwind.nextU c)
    match r with
    | some v =>
      let z ← MutM.get
      let vs ← MutM.lift (ZipRest.nextAll c z.rest pos)
      pure (some (v, vs))
    | none => pure none
  endU c := do
    let z ← MutM.get
    let pos ← MutM.lift (SIMDIterable.scalarPos c z.first)
    let r ← Zip.onFirst (Unwind.endU c)
    match r with
    | some (v, n) =>
      let z ← MutM.get
      let vs ← MutM.lift (ZipRest.endAll c z.rest pos n)
      pure (some ((v, vs), n))
    | none => pure none

end Zip

section ZipMap
variable {Z σ γ β : Type} {w' : Nat} [SIMDZippedIterator Z γ] [UnwindZ Z γ]

/-- `self.iter` of a map of a zip. -/
def SIMDZipMap.onIter {r : Type} (x : MutM Z r) : MutM (SIMDZipMap Z σ γ β w') r :=
  fun m => ((x m.iter).1, { m with iter := (x m.iter).2 })

/-- `(self.func)(v)`. -/
def SIMDZipMap.callU (v : γ) : MutM (SIMDZipMap Z σ γ β w') (Vector β w') :=
  MutM.call fun m => do
    let (u, st) ← m.func m.st v
    ok (u, { m with st := st })

/-- `next` (src/zip.rs:305-313) and `end` (363-371) of a map of a zip. -/
instance instUnwindZipMap [Packable β] : Unwind (SIMDZipMap Z σ γ β w') β w' where
  nextU c := do
    let r ← SIMDZipMap.onIter (UnwindZ.nextU c)
    match r with
    | some v =>
      let u ← SIMDZipMap.callU v
      pure (some u)
    | none => pure none
  endU c := do
    let r ← SIMDZipMap.onIter (UnwindZ.endU c)
    match r with
    | some (v, n) =>
      let m ← MutM.get
      let nr ← MutM.lift (do udiv (← umul c n (SIMDZippedIterator.size m.iter)) (Packable.size β))
      let u ← SIMDZipMap.callU v
      pure (some (u, nr))
    | none => pure none

end ZipMap

section Consumers
variable {I α : Type} {w : Nat} [Unwind I α w]

/-- Loop of `scalar_fill` (src/iters.rs:741-745) with the iterator and the buffer as places. -/
def fillLoopU (c : Cfg) :
    (fuel : Nat) → Nat → Vector α w → MutM (I × List α) (Nat × Vector α w)
  | 0, _, _ => MutM.lift hang
  | fuel + 1, offset, lastvec => do
    let r ← MutM.onFst (Unwind.nextU c)
    match r with
    | none => pure (offset, lastvec)
    | some vec =>
      MutM.onSnd (MutM.modify fun buf => Packed.storeUnchecked c vec buf offset)
      let offset ← MutM.lift (uadd c offset w)
      fillLoopU c fuel offset vec

/-- Element-wise stores (src/iters.rs:756-760). -/
def fillTailLoopU (c : Cfg) (p : Vector α w) (n offset : Nat) :
    (k i : Nat) → MutM (I × List α) Unit
  | 0, _ => pure ()
  | k + 1, i => do
    let x ← MutM.lift (do Packed.extractUnchecked c p (← uadd c i n))
    let o ← MutM.lift (uadd c offset i)
    MutM.onSnd (MutM.modify fun buf => indexSet buf o x)
    fillTailLoopU c p n offset k (i + 1)

/-- `scalar_fill` (src/iters.rs:737-765). -/
def scalarFillU [Packable α] (c : Cfg) (fuel : Nat) : MutM (I × List α) Unit := do
  let (offset, lastvec) ← fillLoopU c fuel 0 Packed.default
  let r ← MutM.onFst (Unwind.endU c)
  match r with
  | some (p, n) =>
    if offset > 0 then
      let o ← MutM.lift (usub c offset n)
      MutM.onSnd (MutM.modify fun buf => Packed.storeUnchecked c p buf o)
      let o ← MutM.lift (usub c offset w)
      MutM.onSnd (MutM.modify fun buf => Packed.storeUnchecked c lastvec buf o)
    else
      let k ← MutM.lift (usub c w n)
      fillTailLoopU c p n offset k 0
  | none => pure ()

/-- Loop of `simd_do_each` (src/iters.rs:98-100) with the iterator as place. -/
def doEachLoopU {σ : Type} (c : Cfg) (func : FnMut σ (Vector α w) Unit) :
    (fuel : Nat) → σ → MutM I σ
  | 0, _ => MutM.lift hang
  | fuel + 1, st => do
    let r ← Unwind.nextU c
    match r with
    | none => pure st
    | some v =>
      let (_, st) ← MutM.lift (func st v)
      doEachLoopU c func fuel st

/-- `simd_do_each` (src/iters.rs:96-104). -/
def simdDoEachU {σ : Type} (c : Cfg) (fuel : Nat) (st : σ) (func : FnMut σ (Vector α w) Unit) :
    MutM I σ := do
  let st ← doEachLoopU c func fuel st
  let r ← Unwind.endU c
  match r with
  | some (v, _) =>
    let (_, st) ← MutM.lift (func st v)
    pure st
  | none => pure st

/-- Loop of `simd_reduce` (src/iters.rs:160-162) with the iterator as place. The accumulator is
moved into the closure, so it is lost when the closure panics. -/
def reduceLoopU {A σ : Type} (c : Cfg) (func : σ → A → Vector α w → Res (A × σ)) :
    (fuel : Nat) → A → σ → MutM I (A × σ)
  | 0, _, _ => MutM.lift hang
  | fuel + 1, acc, st => do
    let r ← Unwind.nextU c
    match r with
    | none => pure (acc, st)
    | some v =>
      let (acc, st) ← MutM.lift (func st acc v)
      reduceLoopU c func fuel acc st

/-- `simd_reduce` (src/iters.rs:157-167). -/
def simdReduceU {A σ : Type} (c : Cfg) (fuel : Nat) (start : A) (st : σ)
    (func : σ → A → Vector α w → Res (A × σ)) : MutM I (A × σ) := do
  let (acc, st) ← reduceLoopU c func fuel start st
  let r ← Unwind.endU c
  match r with
  | some (v, _) => MutM.lift (func st acc v)
  | none => pure (acc, st)

end Consumers

section ZipConsumers
variable {Z γ : Type} [UnwindZ Z γ]

/-- Loop of `simd_reduce` of a zip (src/zip.rs:213-215) with the zip as place. -/
def zreduceLoopU {A σ : Type} (c : Cfg) (func : σ → A → γ → Res (A × σ)) :
    (fuel : Nat) → A → σ → MutM Z (A × σ)
  | 0, _, _ => MutM.lift hang
  | fuel + 1, acc, st => do
    let r ← UnwindZ.nextU c
    match r with
    | none => pure (acc, st)
    | some v =>
      let (acc, st) ← MutM.lift (func st acc v)
      zreduceLoopU c func fuel acc st

/-- `simd_reduce` of a zip (src/zip.rs:210-220). -/
def zsimdReduceU {A σ : Type} (c : Cfg) (fuel : Nat) (start : A) (st : σ)
    (func : σ → A → γ → Res (A × σ)) : MutM Z (A × σ) := do
  let (acc, st) ← zreduceLoopU c func fuel start st
  let r ← UnwindZ.endU c
  match r with
  | some (v, _) => MutM.lift (func st acc v)
  | none => pure (acc, st)

/-- Loop of `simd_do_each` of a zip (src/zip.rs:151-153) with the zip as place. -/
def zdoEachLoopU {σ : Type} (c : Cfg) (func : FnMut σ γ Unit) : (fuel : Nat) → σ → MutM Z σ
  | 0, _ => MutM.lift hang
  | fuel + 1, st => do
    let r ← UnwindZ.nextU c
    match r with
    | none => pure st
    | some v =>
      let (_, st) ← MutM.lift (func st v)
      zdoEachLoopU c func fuel st

/-- `simd_do_each` of a zip (src/zip.rs:149-157). -/
def zsimdDoEachU {σ : Type} (c : Cfg) (fuel : Nat) (st : σ) (func : FnMut σ γ Unit) : MutM Z σ := do
  let st ← zdoEachLoopU c func fuel st
  let r ← UnwindZ.endU c
  match r with
  | some (v, _) =>
    let (_, st) ← MutM.lift (func st v)
    pure st
  | none => pure st

end ZipConsumers
end Faster
