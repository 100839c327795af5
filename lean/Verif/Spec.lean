import Verif.Iters
/-
Vocabulary used to state properties. Nothing here refers to how the library
works: only lists, vectors and closures.
-/
namespace Faster
open Res

/-- The consecutive full groups of `w` elements of `l`. -/
def fullWindows {α : Type} (w : Nat) (l : List α) : List (Vector α w) :=
  List.ofFn (n := l.length / w) fun i => Vector.ofFn fun j =>
    l[i.val * w + j.val]'(by
      have hj := j.isLt
      have h : (i.val + 1) * w ≤ l.length / w * w := Nat.mul_le_mul_right w i.isLt
      have := Nat.div_mul_le_self l.length w
      rw [Nat.succ_mul] at h
      omega)

/-- The elements of `l` after its full groups of `w`. -/
def leftover {α : Type} (w : Nat) (l : List α) : List α := l.drop (l.length / w * w)

/-- `r` right-aligned in a vector, the lanes before it taken from `d`. -/
def padFront {α : Type} {w : Nat} (d : Vector α w) (r : List α) : Vector α w :=
  Vector.ofFn fun j => (r[j.val - (w - r.length)]?.filter (fun _ => w - r.length ≤ j.val)).getD d[j]

/-- The vectors a closure is called with by a complete pass over `l`, in order:
the full groups, then the leftover elements padded in front with `d`. -/
def calls {α : Type} (w : Nat) (d : Vector α w) (l : List α) : List (Vector α w) :=
  fullWindows w l ++ (if l.length % w = 0 then [] else [padFront d (leftover w l)])

/-- Concatenation of the lanes of a list of vectors. -/
def lanes {α : Type} {w : Nat} (vs : List (Vector α w)) : List α := vs.flatMap (·.toList)

/-- Call a stateful closure on each vector in order; stop at a panic. -/
def callAll {σ β γ : Type} (f : FnMut σ β γ) : σ → List β → Res (List γ × σ)
  | st, [] => ok ([], st)
  | st, v :: vs => do
    let (u, st) ← f st v
    let (us, st) ← callAll f st vs
    ok (u :: us, st)

/-- The lanes of the output vectors `us` without the first `pad` lanes of the
last vector. -/
def unpad {α : Type} {w : Nat} (pad : Nat) (us : List (Vector α w)) : List α :=
  lanes us.dropLast ++ (us.getLast?.toList.flatMap fun u => u.toList.drop pad)

/-- A closure without state and without panics. -/
def pureFn {β γ : Type} (g : β → γ) : FnMut Unit β γ := fun _ v => ok (g v, ())

/-- `r` is not undefined behaviour. -/
def Res.isSafe {α : Type u} : Res α → Prop
  | ub => False
  | _ => True

end Faster
