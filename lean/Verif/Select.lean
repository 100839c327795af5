import Verif.Intrin.VecTables
/-
Selection of the vector type of every element type.
-/
namespace Faster

/-- `#[cfg(all($(target_feature = $feat,)* not($(target_feature = $nfeat)*)))]`,
src/vecs.rs 90, 96, 101: `F` says which target features are enabled. `not` takes
one condition; every instance gives one (`off_length`). -/
def PackedRow.active (F : String → Bool) (r : PackedRow) : Bool :=
  r.on.all F && !r.off.any F

/-- The `Packable` implementations of element type `el` that get compiled,
src/vecs.rs 101-105. -/
def selected (rows : List PackedRow) (F : String → Bool) (el : String) : List PackedRow :=
  rows.filter fun r => r.el = el && r.active F

/-- The element types for which a `Packable` implementation exists. -/
def elements : List String := ["u8", "i8", "u16", "i16", "u32", "i32", "f32", "u64", "i64", "f64"]

end Faster
