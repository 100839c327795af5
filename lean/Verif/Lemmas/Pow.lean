import Verif.Lemmas.Zip
/-
Tuples of `n` values of one type, to state properties of zips of every arity.
-/
namespace Faster
open Res SIMDSized SIMDIterable SIMDIterator

/-- The right-nested tuple `T × … × T × Unit` of `n` components. -/
def PowT (T : Type) : Nat → Type
  | 0 => Unit
  | n + 1 => T × PowT T n

namespace PowT

/-- The tuple `f k, f (k+1), …, f (k+n-1)`. -/
def mk {T : Type} (f : Nat → T) : (n k : Nat) → PowT T n
  | 0, _ => ()
  | n + 1, k => (f k, mk f n (k + 1))

/-- First component. -/
def head {T : Type} {n : Nat} (t : PowT T (n + 1)) : T := Prod.fst t

/-- The other components. -/
def tail {T : Type} {n : Nat} (t : PowT T (n + 1)) : PowT T n := Prod.snd t

/-- The components in order. -/
def toList {T : Type} : {n : Nat} → PowT T n → List T
  | 0, _ => []
  | _ + 1, t => head t :: toList (tail t)

theorem head_mk {T : Type} (f : Nat → T) (n k : Nat) : head (mk f (n + 1) k) = f k := rfl
theorem tail_mk {T : Type} (f : Nat → T) (n k : Nat) : tail (mk f (n + 1) k) = mk f n (k + 1) := rfl

theorem toList_mk {T : Type} (f : Nat → T) : ∀ (n k : Nat),
    toList (mk f n k) = (List.range' k n).map f := by
  intro n
  induction n with
  | zero => intro k; rfl
  | succ n ih => intro k; simp [toList, head_mk, tail_mk, ih, List.range'_succ]

end PowT

section
variable {T α : Type} {w : Nat} [SIMDSized T] [SIMDIterable T α w] [SIMDArray T α w]

/-- `n` further iterators of one type. -/
instance instPowRest : (n : Nat) → ZipRest (PowT T n) (PowT (Vector α w) n)
  | 0 => instZipRestUnit
  | n + 1 => @instZipRestCons T (PowT T n) α (PowT (Vector α w) n) w _ _ _ (instPowRest n)

instance instPowLawful : (n : Nat) → LawfulRest (PowT T n) (PowT (Vector α w) n) (PowT α n) w
  | 0 => instLawfulUnit w
  | n + 1 => @instLawfulCons T (PowT T n) α (PowT (Vector α w) n) (PowT α n) w _ _ _ _
      (instPowLawful n)

theorem PowT.rep_cons {c : Cfg} {n : Nat} {t : PowT T (n + 1)} {rows : List (PowT α (n + 1))}
    {dv : Vector (PowT α (n + 1)) w}
    (h1 : RepIter c (PowT.head t) (rows.map PowT.head) (dv.map PowT.head))
    (h2 : LawfulRest.Rep c (PowT.tail t) (rows.map PowT.tail) (dv.map PowT.tail)) :
    LawfulRest.Rep c t rows dv := ⟨h1, h2⟩

theorem PowT.pack_head {n : Nat} (v : Vector (PowT α (n + 1)) w) :
    PowT.head (LawfulRest.pack (PowT T (n + 1)) v : PowT (Vector α w) (n + 1)) = v.map PowT.head :=
  rfl

theorem PowT.pack_tail {n : Nat} (v : Vector (PowT α (n + 1)) w) :
    PowT.tail (LawfulRest.pack (PowT T (n + 1)) v : PowT (Vector α w) (n + 1)) =
      LawfulRest.pack (PowT T n) (v.map PowT.tail) :=
  rfl

/-- Lane `j` of the tuple of vectors of a vector of tuples. -/
theorem PowT.pack_lane (j : Nat) (hj : j < w) : ∀ (n : Nat) (v : Vector (PowT α n) w),
    (PowT.toList (LawfulRest.pack (PowT T n) v : PowT (Vector α w) n)).map (·[j]) =
      PowT.toList v[j] := by
  intro n
  induction n with
  | zero => intro v; rfl
  | succ n ih =>
    intro v
    have h := ih (v.map PowT.tail)
    simp only [PowT.toList, List.map_cons, pack_head, pack_tail]
    rw [h]
    simp only [Vector.getElem_map]

/-- A tuple of iterators represents the rows made of their elements. -/
theorem PowT.rep {c : Cfg} (F : Nat → T) (f : Nat → Nat → α) (D : Nat → Vector α w) (N : Nat) :
    ∀ (n k : Nat), (∀ i, k ≤ i → i < k + n → RepIter c (F i) ((List.range N).map (f i)) (D i)) →
      LawfulRest.Rep c (PowT.mk F n k)
        ((List.range N).map fun i => PowT.mk (fun m => f m i) n k)
        (Vector.ofFn (n := w) fun j => PowT.mk (fun m => (D m)[j]) n k) := by
  intro n
  induction n with
  | zero => intro k h; trivial
  | succ n ih =>
    intro k h
    have h1 := h k (by omega) (by omega)
    have h2 := ih (k + 1) (fun i h3 h4 => h i (by omega) (by omega))
    apply PowT.rep_cons
    · simp only [List.map_map, head_mk, Function.comp_def]
      have e2 : (Vector.map PowT.head (Vector.ofFn (n := w) fun j =>
        PowT.mk (fun m => (D m)[j]) (n + 1) k)) = D k := by
        ext j hj; simp [head_mk]
      rw [e2]
      exact h1
    · simp only [List.map_map, tail_mk, Function.comp_def]
      have e2 : (Vector.map PowT.tail (Vector.ofFn (n := w) fun j =>
        PowT.mk (fun m => (D m)[j]) (n + 1) k)) =
          Vector.ofFn (n := w) fun j => PowT.mk (fun m => (D m)[j]) n (k + 1) := by
        ext j hj; simp [tail_mk]
      rw [e2]
      exact h2

end
end Faster
