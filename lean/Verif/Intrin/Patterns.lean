import Verif.Intrin.Merge
import Verif.Intrin.ArithTables
import Verif.Intrin.PatternTables
/-
The pattern constructors with the literals of the sources, and the script which generated them
(`scripts/vec_patterns_gen.py`).
-/
namespace Faster
open Res

variable {α : Type} {w : Nat}

/-- The arguments in order. -/
def Args.list (a : Args) (hi lo : α) : List α :=
  (List.range a.count).map fun i => if a.his.testBit i then hi else lo

/-- `Self::new(hi, lo, …)`. -/
def Args.new (a : Args) (hi lo : α) : Res (Vector α w) := newLanes ((a.list hi lo).map ok)

/-- `Pattern::halfs` of a type (src/arch/x86/vec_patterns.rs:38-41). -/
def PatternRow.halfsOf (r : PatternRow) (hi lo : α) : Res (Vector α r.width) := r.halfs.new hi lo

/-- `Pattern::interleave` of a type (src/arch/x86/vec_patterns.rs:43-46). -/
def PatternRow.interleaveOf (r : PatternRow) (hi lo : α) : Res (Vector α r.width) :=
  r.interleave.new hi lo

/-- `Pattern::partition` without instructions (src/arch/x86/vec_patterns.rs:62-135): the assertion
and the `match`, whose last arm is `unreachable!()`. -/
def PatternRow.partitionOf (r : PatternRow) (hi lo : α) (off : Nat) : Res (Vector α r.width) := do
  assert (off ≤ r.width)
  match r.arms.lookup off with
  | some a => a.new hi lo
  | none => panic

/-- `Pattern::ones` and `Pattern::zeroes` (src/arch/x86/vec_patterns.rs:137-147): the literal
transmuted to the element type, which must have its size. -/
def PatternRow.constOf (r : PatternRow) (lit : Nat × Nat) : Res (Vector (BitVec (8 * r.size)) r.width) :=
  if lit.2 = 8 * r.size then ok (Packed.splat (BitVec.ofNat _ lit.1)) else panic

/-! ### The generator -/

/-- `hi` and `lo` as text. -/
inductive Word
  | hi | lo
deriving DecidableEq, Repr

/-- The arguments the script writes for `halfs` (scripts/vec_patterns_gen.py:76-78). -/
def genHalfs (l : Nat) : List Word := List.replicate (l / 2) .hi ++ List.replicate (l / 2) .lo

/-- The arguments for `interleave` (scripts/vec_patterns_gen.py:84). -/
def genInterleave (l : Nat) : List Word := (List.replicate (l / 2) [Word.hi, Word.lo]).flatten

/-- The arguments in arm `i` of `partition` (scripts/vec_patterns_gen.py:115-118). -/
def genArm (l i : Nat) : List Word := List.replicate i .hi ++ List.replicate (l - i) .lo

/-- The arms of `partition` (scripts/vec_patterns_gen.py:114-118). -/
def genArms (l : Nat) : List (Nat × List Word) := (List.range (l + 1)).map fun i => (i, genArm l i)

/-- The literals of `ones` and `zeroes` for elements of `s` bits (scripts/vec_patterns_gen.py:124-135):
`s // 4` hexadecimal digits. -/
def genConst (digit s : Nat) : Nat × Nat :=
  ((List.replicate (s / 4) digit).foldl (fun a d => 16 * a + d) 0, s)

/-- `Self::new` with generated arguments. -/
def genNew (l : List Word) (hi lo : α) : Res (Vector α w) :=
  newLanes (l.map fun a => ok (match a with | .hi => hi | .lo => lo))

/-- The generated `partition` for vectors of `w` lanes. -/
def genPartition (hi lo : α) (off : Nat) : Res (Vector α w) := do
  assert (off ≤ w)
  match (genArms w).lookup off with
  | some a => genNew a hi lo
  | none => panic

/-- The features and instructions which the script chooses for x86
(scripts/vec_patterns_gen.py:150-153), by the number of bits of a vector. No target has the
feature "avx512-notyet". -/
def genBlend (bits : Nat) : Option (Gate × Instr) :=
  [(512, Gate.never, Instr.mm512_mask_mov_epi8), (256, Gate.avx2, Instr.mm256_blendv_epi8),
    (128, Gate.sse41, Instr.mm_blendv_epi8)].lookup bits

end Faster
