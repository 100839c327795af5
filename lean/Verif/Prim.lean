/-
Primitive notions of the model: outcomes of Rust code, build configurations,
`usize` arithmetic, slices and `Vec` buffers.
-/
namespace Faster

/-- Outcome of running Rust code.

* `ok a`: returned `a`;
* `panic`: unwound with a panic;
* `ub`: an `unsafe` operation was used outside its contract (out-of-bounds
  access); nothing is known about the program afterwards;
* `hang`: a loop was still running when the fuel of the model ran out. -/
inductive Res (α : Type u) where
  | ok (a : α)
  | panic
  | ub
  | hang
deriving Repr, DecidableEq

namespace Res

/-- Sequencing: only a normal outcome continues. -/
def bind {α : Type u} {β : Type v} (x : Res α) (f : α → Res β) : Res β :=
  match x with
  | ok a => f a
  | panic => panic
  | ub => ub
  | hang => hang

instance : Monad Res where
  pure := Res.ok
  bind := Res.bind

@[simp] theorem pure_eq {α : Type u} (a : α) : (pure a : Res α) = ok a := rfl
@[simp] theorem ok_bind {α β : Type u} (a : α) (f : α → Res β) : (ok a >>= f) = f a := rfl
@[simp] theorem panic_bind {α β : Type u} (f : α → Res β) : ((panic : Res α) >>= f) = panic := rfl
@[simp] theorem ub_bind {α β : Type u} (f : α → Res β) : ((ub : Res α) >>= f) = ub := rfl
@[simp] theorem hang_bind {α β : Type u} (f : α → Res β) : ((hang : Res α) >>= f) = hang := rfl

instance : LawfulMonad Res := LawfulMonad.mk'
  (id_map := by intro α x; cases x <;> rfl)
  (pure_bind := by intros; rfl)
  (bind_assoc := by intro α β γ x f g; cases x <;> rfl)

end Res

open Res

/-- Build configuration: `debug` is true when `debug_assert!` and arithmetic
overflow checks are compiled in; `usize` is the number of `usize` values
(`2^64` on the x86-64 targets). -/
structure Cfg where
  debug : Bool
  usize : Nat
deriving Repr, DecidableEq

/-- 64-bit debug build (used in examples). -/
def debug64 : Cfg := { debug := true, usize := 2 ^ 64 }
/-- 64-bit release build (used in examples). -/
def release64 : Cfg := { debug := false, usize := 2 ^ 64 }

/-- `assert!(b)`. -/
def assert (b : Bool) : Res Unit := if b then ok () else panic

/-- `debug_assert!(b)`: checked only in debug builds. -/
def debugAssert (c : Cfg) (b : Bool) : Res Unit :=
  if c.debug then assert b else ok ()

/-- `a + b` on `usize`: checked in debug builds, wrapping in release builds. -/
def uadd (c : Cfg) (a b : Nat) : Res Nat :=
  if a + b < c.usize then ok (a + b)
  else if c.debug then panic else ok ((a + b) % c.usize)

/-- `a - b` on `usize`: checked in debug builds, wrapping in release builds. -/
def usub (c : Cfg) (a b : Nat) : Res Nat :=
  if b ≤ a then ok (a - b)
  else if c.debug then panic else ok ((c.usize + a - b) % c.usize)

/-- `a * b` on `usize`: checked in debug builds, wrapping in release builds. -/
def umul (c : Cfg) (a b : Nat) : Res Nat :=
  if a * b < c.usize then ok (a * b)
  else if c.debug then panic else ok ((a * b) % c.usize)

/-- `a / b` on `usize`: division by zero always panics. -/
def udiv (a b : Nat) : Res Nat := if b = 0 then panic else ok (a / b)

/-- `&data[offset..]`: panics if `offset > data.len()`. -/
def sliceFrom {α : Type u} (data : List α) (offset : Nat) : Res (List α) :=
  if offset ≤ data.length then ok (data.drop offset) else panic

/-- `data[i]` (bounds checked). -/
def index {α : Type u} (data : List α) (i : Nat) : Res α :=
  match data[i]? with
  | some x => ok x
  | none => panic

/-- `*data.get_unchecked(i)`. -/
def getUnchecked {α : Type u} (data : List α) (i : Nat) : Res α :=
  match data[i]? with
  | some x => ok x
  | none => ub

/-- `data[i] = x` (bounds checked). -/
def indexSet {α : Type u} (data : List α) (i : Nat) (x : α) : Res (List α) :=
  if i < data.length then ok (data.set i x) else panic

/-- `*data.get_unchecked_mut(i) = x`. -/
def setUnchecked {α : Type u} (data : List α) (i : Nat) (x : α) : Res (List α) :=
  if i < data.length then ok (data.set i x) else ub

/-- Overwrite the cells of `data` from `offset` on with `xs`. -/
def splice {α : Type u} (data : List α) (offset : Nat) (xs : List α) : List α :=
  data.take offset ++ xs ++ data.drop (offset + xs.length)

/-- A `Vec<α>` whose elements may be uninitialised: all `capacity` cells
(`none` = never written) and the current length. -/
structure RVec (α : Type u) where
  cells : List (Option α)
  len : Nat
deriving Repr, DecidableEq

namespace RVec

/-- `Vec::with_capacity(n)`. Simplified: the allocation succeeds and has
exactly `n` cells. -/
def withCapacity {α : Type u} (n : Nat) : RVec α := { cells := List.replicate n none, len := 0 }

/-- `Vec::set_len(n)` (unsafe; requires `n <= capacity`). -/
def setLen {α : Type u} (v : RVec α) (n : Nat) : Res (RVec α) :=
  if n ≤ v.cells.length then ok { v with len := n } else ub

/-- The elements of the `Vec` as a slice (`&mut v[..]`). -/
def slice {α : Type u} (v : RVec α) : List (Option α) := v.cells.take v.len

/-- Put back a slice obtained by `slice` after it was modified. -/
def putSlice {α : Type u} (v : RVec α) (s : List (Option α)) : RVec α :=
  { v with cells := s ++ v.cells.drop v.len }

end RVec

end Faster
