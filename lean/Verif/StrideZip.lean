import Verif.Zip
/-
Model of `src/stride_zip.rs`: pairs of consecutive elements of one iterator.
-/
namespace Faster
open Res SIMDSized SIMDIterable SIMDIterator

/-- `Destride::destride_two`, polyfill (src/intrin/destride.rs:16-23): the lanes
with even and with odd index of the concatenation. The macro is given the even
lane numbers of the type; `Verif/Intrin/Destride.lean` compares this with the
macro and with the versions for x86. -/
def Packed.destrideTwo {α : Type} {w : Nat} (self other : Vector α w) : Vector α w × Vector α w :=
  (Vector.ofFn fun j => (self ++ other)[2 * j.val], Vector.ofFn fun j => (self ++ other)[2 * j.val + 1])

/-- `struct StrideZip` (src/stride_zip.rs:6-10). -/
structure StrideZip (I α : Type) (w : Nat) where
  base : Nat
  peek : Option (Vector α w)
  iter : I

section
variable {I α : Type} {w : Nat} [SIMDSized I] [SIMDIterator I α w]

/-- `IntoStrideZip::stride_zip` (src/stride_zip.rs:20-26). -/
def strideZip (c : Cfg) (it : I) : Res (StrideZip I α w) := do
  ok { base := ← SIMDIterable.scalarPos c it, peek := none, iter := it }

/-- `Iterator::next` (src/stride_zip.rs:83-92). -/
def StrideZip.next (c : Cfg) (z : StrideZip I α w) :
    Res (Option (Vector α w × Vector α w) × StrideZip I α w) := do
  let (first, it) ← SIMDIterable.next c z.iter
  match first with
  | none => ok (none, { z with iter := it })
  | some first =>
    let (second, it) ← SIMDIterable.next c it
    match second with
    | some second => ok (some (Packed.destrideTwo first second), { z with iter := it })
    | none => ok (none, { z with peek := some first, iter := it })

/-- `SIMDZippedIterator::end` (src/stride_zip.rs:96-111). -/
def StrideZip.end_ (c : Cfg) (z : StrideZip I α w) :
    Res (Option ((Vector α w × Vector α w) × Nat) × StrideZip I α w) := do
  let (first, it) ← SIMDIterable.next c z.iter
  let (e, it) ← SIMDIterator.end_ c it
  let (e, n) := e.getD (SIMDIterable.dflt it, 0)
  match first with
  | some first =>
    let m ← uadd c w n
    ok (some (Packed.destrideTwo first e, m / 2), { z with iter := it })
  | none =>
    match z.peek with
    | some v =>
      let m ← uadd c w n
      ok (some (Packed.destrideTwo v e, m / 2), { z with peek := none, iter := it })
    | none =>
      if n > 0 then
        ok (some (Packed.destrideTwo e (SIMDIterable.dflt it), n / 2), { z with iter := it })
      else ok (none, { z with iter := it })

/-- The impls for `StrideZip` (src/stride_zip.rs:29-78). -/
instance instStrideZip [Packable α] :
    SIMDZippedIterator (StrideZip I α w) (Vector α w × Vector α w) where
  width _ := w
  size _ := Packable.size α
  next := StrideZip.next
  end_ := StrideZip.end_
  len c z := do ok ((← SIMDIterable.len c z.iter) / 2)
  scalarPos c z := do
    let p ← SIMDIterable.scalarPos c z.iter
    ok ((← usub c p z.base) / 2)
  advance c z amount := do
    let a ← umul c 2 amount
    ok { z with iter := ← SIMDIterable.advance c z.iter a }
  dflt _ := (Packed.default, Packed.default)
  scalarLen c z := do ok ((← SIMDSized.scalarLen c z.iter) / 2)
  vectorPos c z := do
    let p ← SIMDIterable.vectorPos c z.iter
    let b ← udiv z.base w
    ok ((← usub c p b) / 2)

end
end Faster
