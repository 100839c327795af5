import Verif.Props.Impls
/-
C124: the rows of the tables have the lanes of the vector types they are named after.
-/
namespace Faster

/-- The name of a vector type is that of the lanes: `n` of them, `s` bytes each, of kind `k`. -/
def named (vec : String) (k : Kind) (s n : Nat) : Bool := decide ((⟨k, s, n⟩ : VType).name = vec)

/-- The same for some kind of lanes, where a table does not say which. -/
def shaped (vec : String) (s n : Nat) : Bool := named vec .u s n || named vec .i s n || named vec .f s n

/-- **C124**, arithmetic: the theorems about the methods are about lanes of the kind, size and number
which the name of the type says, on x86 and on other targets. -/
theorem C124_arith_types :
    (∀ r ∈ satAddRows ++ satAddRowsUnknown ++ satSubRows ++ satSubRowsUnknown ++ cmpRows ++ cmpRowsUnknown ++
      eqRows ++ eqRowsUnknown, named r.vec r.kind r.size r.width = true) ∧
    (∀ r ∈ haddRows ++ haddRowsUnknown ++ hsubRows ++ hsubRowsUnknown ++ satHaddRows ++ satHaddRowsUnknown ++
      satHsubRows ++ satHsubRowsUnknown, named r.vec r.kind r.size r.width = true) ∧
    (∀ r ∈ roundRows ++ roundRowsUnknown ++ sqrtRows ++ sqrtRowsUnknown ++ recipRows ++ recipRowsUnknown ++
      rsqrtRows ++ rsqrtRowsUnknown, named r.vec r.kind r.size r.width = true) ∧
    (∀ r ∈ absRows ++ absRowsUnknown, named r.vec r.kind r.size r.width = true) := by
  refine ⟨?_, ?_, ?_, ?_⟩ <;> decide +kernel

/-- **C124**, casts: the types before and after the cast. -/
theorem C124_cast_types :
    (∀ r ∈ upcastRows ++ upcastRowsUnknown, named r.vec r.kind r.size r.width = true ∧
      named r.to r.toKind (2 * r.size) (r.width / 2) = true ∧ r.width % 2 = 0) ∧
    (∀ r ∈ downcastRows ++ downcastRowsUnknown, named r.vec r.kind (2 * r.size) r.width = true ∧
      named r.to r.toKind r.size (2 * r.width) = true) := by
  refine ⟨?_, ?_⟩ <;> decide +kernel

/-- **C124**, methods which move lanes: here the kind of the lanes does not matter. -/
theorem C124_shuffle_types :
    (∀ r ∈ swapRows ++ swapRows512 ++ swapRowsUnknown ++ flipRows ++ flipRows512,
      shaped r.vec r.size r.width = true) ∧
    (∀ r ∈ mergeRows ++ mergeRowsUnknown, shaped r.vec r.size r.width = true) ∧
    (∀ r ∈ destrideRows ++ destrideRowsUnknown,
      ([1, 2, 4, 8].any fun s => shaped r.vec s r.width) = true) ∧
    (∀ r ∈ patternRows ++ patternRowsUnknown, shaped r.vec r.size r.width = true) ∧
    (∀ r ∈ packedRows ++ packedRowsUnknown, shaped r.vec r.elSize r.lanes = true) := by
  refine ⟨?_, ?_, ?_, ?_, ?_⟩ <;> decide +kernel

/-- The name of the scalar type of the lanes. -/
def elNamed (el : String) (k : Kind) (s : Nat) : Bool :=
  decide ((match k with | .u => "u" | .i => "i" | .f => "f") ++ toString (8 * s) = el)

/-- **C124**, vectors and their lanes: the scalar type and the vector type have the same lanes. -/
theorem C124_lane_types :
    (∀ r ∈ packedRows ++ packedRowsUnknown, ([Kind.u, .i, .f].any fun k =>
      named r.vec k r.elSize r.lanes && elNamed r.el k r.elSize) = true) ∧
    (∀ r ∈ softRows, ([Kind.u, .i, .f].any fun k =>
      named r.vec k r.elSize r.lanes && elNamed r.el k r.elSize) = true) ∧
    (∀ r ∈ softOps ++ softAssignOps, ([1, 2, 4, 8].any fun s => elNamed r.el r.kind s &&
      ([2, 4, 8, 16, 32, 64].any fun n => named r.vec r.kind s n)) = true) := by
  refine ⟨?_, ?_, ?_⟩ <;> decide +kernel

/-- A row whose kind is not that of its type. -/
example : named "u32x4" .u 4 4 = true ∧ named "u32x4" .i 4 4 = false ∧ shaped "u32x4" 4 8 = false := by
  decide +kernel

end Faster
