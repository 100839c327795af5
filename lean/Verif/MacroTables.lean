/-
The arguments of macros which write out tuples and types. Written by `tools/gen_macros.py`.
-/
namespace Faster

/-- An invocation of `impl_iter_zip!` and its line: the type parameters and the fields other than
the first. -/
structure ZipArm where
  line : Nat
  types : List String
  fields : List Nat
deriving DecidableEq, Repr

/-- A `PackedStride` literal of `stride_two` … `stride_nine`: `pos`, `base`, `stride` and the
field of `default`. -/
structure StrideLit where
  pos : Nat
  base : Nat
  stride : Nat
  dflt : Nat
deriving DecidableEq, Repr

/-- An invocation of `impl_packed_transmute!`: the file, the types which get an implementation and
the ten result types in the order of the macro. -/
structure TransmuteArm where
  file : String
  line : Nat
  types : List String
  results : List String
deriving DecidableEq, Repr

/-- `impl_iter_zip!` (src/zip.rs:373-408). -/
def zipArms : List ZipArm := [
  ⟨373, ["A", "B"], [1]⟩,
  ⟨376, ["A", "B", "C"], [1, 2]⟩,
  ⟨379, ["A", "B", "C", "D"], [1, 2, 3]⟩,
  ⟨382, ["A", "B", "C", "D", "E"], [1, 2, 3, 4]⟩,
  ⟨385, ["A", "B", "C", "D", "E", "F"], [1, 2, 3, 4, 5]⟩,
  ⟨388, ["A", "B", "C", "D", "E", "F", "G"], [1, 2, 3, 4, 5, 6]⟩,
  ⟨391, ["A", "B", "C", "D", "E", "F", "G", "H"], [1, 2, 3, 4, 5, 6, 7]⟩,
  ⟨394, ["A", "B", "C", "D", "E", "F", "G", "H", "I"], [1, 2, 3, 4, 5, 6, 7, 8]⟩,
  ⟨397, ["A", "B", "C", "D", "E", "F", "G", "H", "I", "J"], [1, 2, 3, 4, 5, 6, 7, 8, 9]⟩,
  ⟨400, ["A", "B", "C", "D", "E", "F", "G", "H", "I", "J", "K"], [1, 2, 3, 4, 5, 6, 7, 8, 9, 10]⟩,
  ⟨403, ["A", "B", "C", "D", "E", "F", "G", "H", "I", "J", "K", "L"], [1, 2, 3, 4, 5, 6, 7, 8, 9, 10, 11]⟩,
  ⟨406, ["A", "B", "C", "D", "E", "F", "G", "H", "I", "J", "K", "L", "M"], [1, 2, 3, 4, 5, 6, 7, 8, 9, 10, 11, 12]⟩]

/-- `tuplify!` (src/zip.rs:25-38): the number of each arm and the number of copies. -/
def tuplifyArms : List (Nat × Nat) :=
  [(1, 1), (2, 2), (3, 3), (4, 4), (5, 5), (6, 6), (7, 7), (8, 8), (9, 9), (10, 10), (11, 11), (12, 12)]

/-- `stride_two` … `stride_nine` (src/stride.rs:133-280). -/
def strideLits : List (String × List StrideLit) := [
  ("stride_two", [⟨0, 0, 2, 0⟩, ⟨1, 1, 2, 1⟩]),
  ("stride_three", [⟨0, 0, 3, 0⟩, ⟨1, 1, 3, 1⟩, ⟨2, 2, 3, 2⟩]),
  ("stride_four", [⟨0, 0, 4, 0⟩, ⟨1, 1, 4, 1⟩, ⟨2, 2, 4, 2⟩, ⟨3, 3, 4, 3⟩]),
  ("stride_nine", [⟨0, 0, 9, 0⟩, ⟨1, 1, 9, 1⟩, ⟨2, 2, 9, 2⟩, ⟨3, 3, 9, 3⟩, ⟨4, 4, 9, 4⟩, ⟨5, 5, 9, 5⟩, ⟨6, 6, 9, 6⟩, ⟨7, 7, 9, 7⟩, ⟨8, 8, 9, 8⟩])]

/-- `impl_array_intos!` (src/into_iters.rs:118-127): element and vector types. -/
def intoPairs : List (String × String) :=
  [("u8", "u8s"), ("i8", "i8s"), ("u16", "u16s"), ("i16", "i16s"), ("u32", "u32s"), ("i32", "i32s"), ("f32", "f32s"), ("u64", "u64s"), ("i64", "i64s"), ("f64", "f64s")]

/-- `impl_packed_transmute!` (src/arch/*/intrin/transmute.rs). -/
def transmuteArms : List TransmuteArm := [
  ⟨"arch/x86/intrin/transmute.rs", 15, ["u8x32", "i8x32", "u16x16", "i16x16", "u32x8", "i32x8", "f32x8", "u64x4", "i64x4", "f64x4"],
    ["u8x32", "i8x32", "u16x16", "i16x16", "u32x8", "i32x8", "f32x8", "u64x4", "i64x4", "f64x4"]⟩,
  ⟨"arch/x86/intrin/transmute.rs", 20, ["u8x64", "i8x64", "u16x32", "i16x32", "u32x16", "i32x16", "f32x16", "u64x8", "i64x8", "f64x8"],
    ["u8x64", "i8x64", "u16x32", "i16x32", "u32x16", "i32x16", "f32x16", "u64x8", "i64x8", "f64x8"]⟩,
  ⟨"arch/x86/intrin/transmute.rs", 25, ["u8x16", "i8x16", "u16x8", "i16x8", "u32x4", "i32x4", "f32x4", "u64x2", "i64x2", "f64x2"],
    ["u8x16", "i8x16", "u16x8", "i16x8", "u32x4", "i32x4", "f32x4", "u64x2", "i64x2", "f64x2"]⟩,
  ⟨"arch/unknown/intrin/transmute.rs", 12, ["u8x16", "i8x16", "u16x8", "i16x8", "u32x4", "i32x4", "f32x4", "u64x2", "i64x2", "f64x2"],
    ["u8x16", "i8x16", "u16x8", "i16x8", "u32x4", "i32x4", "f32x4", "u64x2", "i64x2", "f64x2"]⟩]

/-- The parameters of `impl_packed_transmute!` in order (src/intrin/transmute.rs:35-36). -/
def transmuteParams : List String :=
  ["u8s", "i8s", "u16s", "i16s", "u32s", "i32s", "f32s", "u64s", "i64s", "f64s"]

/-- Its associated types (40-49) and what they are set to. -/
def transmuteTypes : List (String × String) :=
  [("i8s", "i8s"), ("u8s", "u8s"), ("i16s", "i16s"), ("u16s", "u16s"), ("i32s", "i32s"), ("u32s", "u32s"), ("f32s", "f32s"), ("i64s", "i64s"), ("u64s", "u64s"), ("f64s", "f64s")]

/-- Its methods `be_…` (51-98), the associated types they return and transmute to. -/
def transmuteFns : List (String × String × String) :=
  [("i8s", "i8s", "i8s"), ("u8s", "u8s", "u8s"), ("i16s", "i16s", "i16s"), ("u16s", "u16s", "u16s"), ("i32s", "i32s", "i32s"), ("u32s", "u32s", "u32s"), ("f32s", "f32s", "f32s"), ("i64s", "i64s", "i64s"), ("u64s", "u64s", "u64s"), ("f64s", "f64s", "f64s")]

end Faster
