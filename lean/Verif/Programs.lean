import Verif.Iters
/-
Loops written by users of the crate, as in its benches: `for` loops over iterators
(`Iterator::next` only, so `end` is never called) which store into a buffer.
-/
namespace Faster
open Res SIMDSized SIMDIterable

variable {T α β : Type} {w w' : Nat} [SIMDSized T] [SIMDIterator T α w]

/-- `for (i, v) in it.enumerate() { let a = F(v); a.store(&mut out, i * a.width()); }`
(benches/usage.rs:40-50, 83-95, 116-128). `i` is the counter of `enumerate`, which
is incremented by each `next`. `F` does not panic and has no state. -/
def forStore (c : Cfg) (F : Vector α w → Vector β w') :
    (fuel : Nat) → T → (i : Nat) → List β → Res (List β)
  | 0, _, _, _ => hang
  | fuel + 1, it, i, out => do
    let (r, it) ← SIMDIterable.next c it
    match r with
    | none => ok out
    | some v =>
      let i' ← uadd c i 1
      let out ← Packed.store (F v) out (← umul c i w')
      forStore c F fuel it i' out

/-- The body `compute!(0, 1, …)` of the unrolled loops (benches/usage.rs:56-66,
100-112): for each index `j` of `idxs`, `let a = F(v[j]); a.store(&mut out, pos(j))`. -/
def storeChunk (F : Vector α w → Vector β w') (chunk : List (Vector α w)) (pos : Nat → Res Nat) :
    (idxs : List Nat) → List β → Res (List β)
  | [], out => ok out
  | j :: js, out => do
    let v ← index chunk j
    let out ← Packed.store (F v) out (← pos j)
    storeChunk F chunk pos js out

/-- `for (i, v) in it.unroll(amt).enumerate() { compute!(0, …, amt - 1) }`, with the
offset of the store as a parameter. -/
def forUnrolled (c : Cfg) (F : Vector α w → Vector β w') (pos : Nat → Nat → Res Nat) (amt : Nat) :
    (fuel : Nat) → Unrolled T α w → (i : Nat) → List β → Res (List β)
  | 0, _, _, _ => hang
  | fuel + 1, u, i, out => do
    let (r, u) ← Unrolled.next c u
    match r with
    | none => ok out
    | some ref =>
      let i' ← uadd c i 1
      let out ← storeChunk F (ref.read u) (pos i) (List.range amt) out
      forUnrolled c F pos amt fuel u i' out

/-- The offset which the benches use: `(i + j) * a.width()` (benches/usage.rs:61,
107), `i` the number of the chunk. -/
def benchPos (c : Cfg) (w' : Nat) (i j : Nat) : Res Nat := do
  umul c (← uadd c i j) w'

/-- The offset of vector `j` of chunk `i`: `(i * amt + j) * a.width()`. Not in the
repository. -/
def chunkPos (c : Cfg) (amt w' : Nat) (i j : Nat) : Res Nat := do
  umul c (← uadd c (← umul c i amt) j) w'

/-- `for v in it.unroll(amt) { black_box(f(v)); }` (benches/destride.rs:13-16, 23-26),
with the list of the values given to `black_box`. -/
def forChunks {γ : Type} (c : Cfg) (f : List (Vector α w) → Res γ) :
    (fuel : Nat) → Unrolled T α w → Res (List γ)
  | 0, _ => hang
  | fuel + 1, u => do
    let (r, u) ← Unrolled.next c u
    match r with
    | none => ok []
    | some ref =>
      let x ← f (ref.read u)
      let xs ← forChunks c f fuel u
      ok (x :: xs)

/-- `v[0].destride_two(v[1])` (benches/destride.rs:14), `two` one of the versions of
`destride_two`; the result as a list. -/
def destrideTwoBody (two : Vector α w → Vector α w → Res (Vector α w × Vector α w))
    (v : List (Vector α w)) : Res (List (Vector α w)) := do
  let a ← index v 0
  let b ← index v 1
  let (x, y) ← two a b
  ok [x, y]

/-- `v[0].destride_four(v[1], v[2], v[3])` (benches/destride.rs:24). -/
def destrideFourBody (four : Vector α w → Vector α w → Vector α w → Vector α w →
    Res (Vector α w × Vector α w × Vector α w × Vector α w))
    (v : List (Vector α w)) : Res (List (Vector α w)) := do
  let a ← index v 0
  let b ← index v 1
  let d ← index v 2
  let e ← index v 3
  let (x0, x1, x2, x3) ← four a b d e
  ok [x0, x1, x2, x3]

end Faster
