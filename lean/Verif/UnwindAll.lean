import Verif.Unwind
import Verif.StrideZip
/-
Continues `Verif/Unwind.lean`: the remaining iterators and consumers with the places which keep
their changes when a panic is caught.
-/
namespace Faster
open Res SIMDSized SIMDIterable SIMDIterator

/-- Code with a local variable `b`. -/
def MutM.withLocal {S B α : Type} (b : B) (x : MutM (S × B) α) : MutM S (α × B) :=
  fun s => ((x (s, b)).1 >>= fun a => ok (a, (x (s, b)).2.2), (x (s, b)).2.1)

section StrideZip
variable {I α : Type} {w : Nat} [SIMDSized I] [SIMDIterator I α w] [Unwind I α w]

/-- `self.iter` of a `stride_zip`. -/
def StrideZip.onIter {r : Type} (x : MutM I r) : MutM (StrideZip I α w) r :=
  fun z => ((x z.iter).1, { z with iter := (x z.iter).2 })

/-- `next` (src/stride_zip.rs:83-92) and `end` (96-111) of a `stride_zip`. If the second of the two
inner calls panics, the vector of the first one is lost. -/
instance instUnwindStrideZip : UnwindZ (StrideZip I α w) (Vector α w × Vector α w) where
  nextU c := do
    let first ← StrideZip.onIter (Unwind.nextU c)
    match first with
    | none => pure none
    | some first =>
      let second ← StrideZip.onIter (Unwind.nextU c)
      match second with
      | some second => pure (some (Packed.destrideTwo first second))
      | none =>
        MutM.modify fun z => ok { z with peek := some first }
        pure none
  endU c := do
    let first ← StrideZip.onIter (Unwind.nextU c)
    let e ← StrideZip.onIter (Unwind.endU c)
    let z ← MutM.get
    let (e, n) := e.getD (SIMDIterable.dflt z.iter, 0)
    match first with
    | some first =>
      let m ← MutM.lift (uadd c w n)
      pure (some (Packed.destrideTwo first e, m / 2))
    | none =>
      match z.peek with
      | some v =>
        MutM.modify fun z => ok { z with peek := none }
        let m ← MutM.lift (uadd c w n)
        pure (some (Packed.destrideTwo v e, m / 2))
      | none =>
        if n > 0 then pure (some (Packed.destrideTwo e (SIMDIterable.dflt z.iter), n / 2))
        else pure none

end StrideZip

section SIMDAdapter
variable {α : Type} {w : Nat}

/-- `self.iter.next()` of the wrapped iterator. -/
def SIMDAdapter.popU : MutM (SIMDAdapter α w) (Option α) := fun a =>
  match a.iter with
  | [] => (ok none, a)
  | x :: rest => (ok (some x), { a with iter := rest })

/-- `self.scratch = self.scratch.replace_unchecked(offset, x)`. -/
def SIMDAdapter.putU (c : Cfg) (offset : Nat) (x : α) : MutM (SIMDAdapter α w) Unit :=
  MutM.modify fun a => do ok { a with scratch := ← Packed.replaceUnchecked c a.scratch offset x }

/-- Loop of `SIMDAdapter::next` (src/iters.rs:245-249). -/
def SIMDAdapter.nextLoopU (c : Cfg) : (n offset : Nat) → MutM (SIMDAdapter α w) Unit
  | 0, _ => pure ()
  | n + 1, offset => do
    let x ← SIMDAdapter.popU
    match x with
    | none => MutM.lift panic  -- `unwrap` of `None`
    | some x =>
      SIMDAdapter.putU c offset x
      SIMDAdapter.nextLoopU c n (offset + 1)

/-- Loop of `SIMDAdapter::end` (src/iters.rs:266-271); `n` bounds the number of scalars left. -/
def SIMDAdapter.endLoopU (c : Cfg) : (n offset : Nat) → MutM (SIMDAdapter α w) Nat
  | 0, offset => pure offset
  | n + 1, offset => do
    let x ← SIMDAdapter.popU
    match x with
    | none => pure offset
    | some x =>
      SIMDAdapter.putU c offset x
      let offset ← MutM.lift (usub c offset 1)
      SIMDAdapter.endLoopU c n offset

/-- `next` (src/iters.rs:241-256) and `end` (259-278) of the adapter: scalars taken from the wrapped
iterator before a panic are gone. -/
instance instUnwindAdapter : Unwind (SIMDAdapter α w) α w where
  nextU c := do
    let a ← MutM.get
    let e ← MutM.lift (uadd c a.position w)
    let len ← MutM.lift (scalarLen c a)
    if e ≤ len then
      SIMDAdapter.nextLoopU c w 0
      MutM.modify fun a => SIMDAdapter.advance c a w
      let a ← MutM.get
      pure (some a.scratch)
    else pure none
  endU c := do
    let a ← MutM.get
    let len ← MutM.lift (scalarLen c a)
    if a.position < len then
      MutM.modify fun a => ok { a with scratch := a.default }
      let offset ← MutM.lift (usub c w 1)
      let offset ← SIMDAdapter.endLoopU c a.iter.length offset
      MutM.modify fun a => finalize c a
      let a ← MutM.get
      pure (some (a.scratch, offset))
    else pure none

end SIMDAdapter

section Consumers
variable {I α : Type} {w : Nat} [SIMDSized I] [SIMDIterator I α w] [Unwind I α w]

/-- Loop of `scalar_collect` (src/iters.rs:712-716) with the iterator as place; the vector which is
filled is local and lost in a panic. -/
def collectLoopU (c : Cfg) : (fuel : Nat) → List (Option α) → Nat → Vector α w →
    MutM I (List (Option α) × Nat × Vector α w)
  | 0, _, _, _ => MutM.lift hang
  | fuel + 1, buf, offset, lastvec => do
    let r ← Unwind.nextU c
    match r with
    | none => pure (buf, offset, lastvec)
    | some vec =>
      let buf ← MutM.lift (Packed.storeUnchecked c (vec.map some) buf offset)
      let offset ← MutM.lift (uadd c offset w)
      collectLoopU c fuel buf offset vec

/-- `scalar_collect` (src/iters.rs:704-734). -/
def scalarCollectU [Packable α] (c : Cfg) (fuel : Nat) : MutM I (List (Option α)) := do
  let it ← MutM.get
  let ret ← MutM.lift (do
    let cap ← umul c (← uadd c (← SIMDIterable.len c it) 1) w
    let ret : RVec α := RVec.withCapacity cap
    ret.setLen (← umul c (← uadd c (← SIMDIterable.len c it) 1) w))
  let (buf, offset, lastvec) ← collectLoopU c fuel ret.slice 0 Packed.default
  let r ← Unwind.endU c
  match r with
  | some (p, n) => MutM.lift (do
    let buf ← fillTail c some p n offset lastvec buf
    let ret := ret.putSlice buf
    let ret ← ret.setLen (← usub c (← uadd c w offset) n)
    ok ret.slice)
  | none =>
    let it ← MutM.get
    MutM.lift (do
      let ret := ret.putSlice buf
      let ret ← ret.setLen (← umul c (← SIMDIterable.len c it) w)
      ok ret.slice)

/-- Loop of `scalar_fill_all` (src/iters.rs:783-786) with the iterator and the buffer as places. -/
def fillAllLoopU {κ : Type} (c : Cfg) (inj : α → κ) : (fuel : Nat) → Nat → MutM (I × List κ) Nat
  | 0, _ => MutM.lift hang
  | fuel + 1, offset => do
    let r ← MutM.onFst (Unwind.nextU c)
    match r with
    | none => pure offset
    | some vec =>
      MutM.onSnd (MutM.modify fun buf => Packed.storeUnchecked c (vec.map inj) buf offset)
      let offset ← MutM.lift (uadd c offset w)
      fillAllLoopU c inj fuel offset

/-- `scalar_fill_all` (src/iters.rs:780-793), on cells `κ`. -/
def fillAllCellsU {κ : Type} (c : Cfg) (inj : α → κ) (fuel : Nat) : MutM (I × List κ) Unit := do
  let offset ← fillAllLoopU c inj fuel 0
  let r ← MutM.onFst (Unwind.endU c)
  match r with
  | some (vec, _) =>
    MutM.onSnd (MutM.modify fun buf => Packed.storeUnchecked c (vec.map inj) buf offset)
  | none => pure ()

/-- `scalar_fill_all` (src/iters.rs:780-793). -/
def scalarFillAllU (c : Cfg) (fuel : Nat) : MutM (I × List α) Unit := fillAllCellsU c id fuel

/-- `scalar_collect_all` (src/iters.rs:769-777). -/
def scalarCollectAllU (c : Cfg) (fuel : Nat) : MutM I (List (Option α)) := do
  let it ← MutM.get
  let ret ← MutM.lift (do
    let cap ← umul c (← uadd c (← SIMDIterable.len c it) 1) w
    let ret : RVec α := RVec.withCapacity cap
    ret.setLen (← SIMDIterable.len c it))
  let ((), s) ← MutM.withLocal ret.slice (fillAllCellsU c some fuel)
  pure (ret.putSlice s).slice

end Consumers
end Faster
