import Verif.Witness.Pipes
import Verif.Props.StagedAll
import Verif.Props.InPlace
/-
States which meet the hypotheses of the theorems of C151 and C152.
-/
namespace Faster
open Res

example := C151_reduce (c := release64) [1#8, 2, 3, 4, 5] (Packed.splat 0#8 : Vector _ 4)
  (Packed.splat 0#8) () (pureFn (Vector.map (· + 1))) 9 9 exZeros ()
  (fun _ a v => ok (Vector.zipWith (· + ·) a v, ())) (by decide) (by decide) (by decide) rfl
  (by decide) (by decide) (by decide) (by decide) (by decide)
example := C151_collect (c := release64) [1#8, 2, 3, 4, 5] (Packed.splat 0#8 : Vector _ 4)
  (Packed.splat 7#8) () (pureFn (Vector.map (· + 1))) 9 9 ()
  (pureFn (Vector.map (· + 1#8))) (by decide) (by decide) (by decide) (by decide) (by decide) rfl rfl
  (by decide) (by decide) (by decide) (by decide) (by decide) (by decide)
example := C151_log_iff (c := release64) [1#8, 2, 3, 4, 5] (Packed.splat 0#8 : Vector _ 4)
  (Packed.splat 0#8) (Vector.map (· + 1)) 9 9 (by decide) (by decide) (by decide) rfl
  (by decide) (by decide) (by decide) (by decide) (by decide)
example := C151_reduce_partial (c := release64) [1#8, 2, 3, 4, 5] (Packed.splat 0#8 : Vector _ 4)
  (Packed.splat 0#8) (Vector.map (· * 2)) 9 9 exZeros ()
  (fun _ a v => ok (Vector.zipWith (· + ·) a v, ())) (by decide) (by decide) (by decide) rfl
  (by decide) (by decide) (by decide) (by decide) (by decide)
  ((repad_eq_iff _ _ _).1 (by decide +kernel))
example := C151_lanewise (c := release64) [1#8, 2, 3, 4, 5] (Packed.splat 0#8 : Vector _ 4)
  (Packed.splat 7#8) () (pureFn (Vector.map (· + 1))) (· + 1#8) 9 9 (by decide) (by decide) (by decide)
  rfl rfl (by decide) (by decide) (by decide) (by decide) (by decide)
example := C151_driver_reduce (β := BitVec 8) exDriver exZeros () (pureFn (Vector.map (· + 1))) 9 9
  exZeros () (fun _ a v => ok (Vector.zipWith (· + ·) a v, ())) (by decide) (by decide) (by decide) rfl
  (by decide) (by decide) (by decide) (by decide)
example := C151_driver_collect (β := BitVec 8) (γ := BitVec 8) exDriver exZeros ()
  (pureFn (Vector.map (· + 1))) 9 9 () (pureFn (Vector.map (· + 1))) (by decide) (by decide) (by decide)
  (by decide) (by decide) rfl rfl (by decide) (by decide) (by decide) (by decide) (by decide)
example := C151_zip_reduce (β := BitVec 8) exDriver exRep (by decide) exZeros () (pureFn exAdd) 9 9
  exZeros () (fun _ a v => ok (Vector.zipWith (· + ·) a v, ())) (by decide) (by decide) (by decide) rfl
  (by decide) (by decide) (by decide) (by decide)
example := C151_zip_collect (β := BitVec 8) (γ := BitVec 8) exDriver exRep (by decide) exZeros ()
  (pureFn exAdd) 9 9 () (pureFn (Vector.map (· + 1))) (by decide) (by decide) (by decide)
  (by decide) (by decide) rfl rfl (by decide) (by decide) (by decide) (by decide) (by decide)

example := C152_collect (c := release64) [1#8, 2, 3, 4, 5] (Packed.splat 0#8 : Vector _ 4) 9 ()
  (pureFn (Vector.map (· + 1))) _ () (by decide) (by decide) (by decide) (by decide) (by decide)
  (callAll_pure _ _)
example := C152_two (c := release64) [1#8, 2, 3, 4, 5] (Packed.splat 0#8 : Vector _ 4) (Packed.splat 7#8)
  9 9 () () () () (pureFn (Vector.map (· + 1))) (pureFn Vector.reverse) _ _ (by decide) (by decide)
  (by decide) (by decide) (callAll_pure _ _) (callAll_pure _ _)
example := C152_iff (c := release64) [1#8, 2, 3, 4, 5] (Packed.splat 0#8 : Vector _ 4) (Packed.splat 7#8)
  9 9 (Vector.map (· + 1)) (by decide) (by decide) (by decide) (by decide)
example := C152_lanewise (c := release64) [1#8, 2, 3, 4, 5] (Packed.splat 0#8 : Vector _ 4)
  (Packed.splat 7#8) 9 9 Vector.reverse (· + 1) (by decide) (by decide) (by decide) (by decide)

end Faster
