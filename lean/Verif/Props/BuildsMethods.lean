import Verif.Props.Builds
import Verif.Intrin.Sum
import Verif.Intrin.Destride
/-
C146, the methods of vectors: every method whose code depends on the build (through `debug_assert!` or
through checked arithmetic) has the same result in release builds, unless it panics in debug builds.
-/
namespace Faster
open Res

/-- The outcomes of lists of expressions agree one by one. -/
inductive EachSame {α : Type} : List (Res α) → List (Res α) → Prop
  | nil : EachSame [] []
  | cons {x y : Res α} {xs ys : List (Res α)} : Same x y → EachSame xs ys → EachSame (x :: xs) (y :: ys)

section Rules
variable {α : Type} {w n : Nat}

theorem same_overflowCheck (u : Nat) (k : Kind) (x : Int) (r : BitVec n) :
    Same (overflowCheck (debugOf u) k x r) (overflowCheck (releaseOf u) k x r) :=
  agree_ite rfl trivial

theorem same_mapM : ∀ {xs ys : List (Res α)}, EachSame xs ys →
    Same (xs.mapM id) (ys.mapM id)
  | _, _, .nil => rfl
  | _, _, .cons h t => by
    rw [List.mapM_cons, List.mapM_cons]
    exact same_bind h fun _ => same_bind (same_mapM t) fun _ => rfl

theorem same_newLanes {xs ys : List (Res α)} (h : EachSame xs ys) :
    Same (newLanes (w := w) xs) (newLanes ys) :=
  same_bind (same_mapM h) fun _ => same_refl _

theorem each_map {β : Type} {f g : β → Res α} (h : ∀ b, Same (f b) (g b)) :
    ∀ l : List β, EachSame (l.map f) (l.map g)
  | [] => .nil
  | b :: l => .cons (h b) (each_map h l)

theorem each_append {xs ys xs' ys' : List (Res α)} (h : EachSame xs ys)
    (h' : EachSame xs' ys') : EachSame (xs ++ xs') (ys ++ ys') := by
  induction h with
  | nil => exact h'
  | cons a _ ih => exact .cons a ih

theorem each_flatMap {β : Type} {f g : β → List (Res α)} (h : ∀ b, EachSame (f b) (g b)) :
    ∀ l : List β, EachSame (l.flatMap f) (l.flatMap g)
  | [] => .nil
  | b :: l => by
    rw [List.flatMap_cons, List.flatMap_cons]
    exact each_append (h b) (each_flatMap h l)

theorem same_reduceLanes {τ : Type} (v : Vector α w) {f g : τ → α → Res τ}
    (h : ∀ a x, Same (f a x) (g a x)) : ∀ (n i : Nat) (a : τ),
    Same (Packed.scalarReduceLoop v f n i a) (Packed.scalarReduceLoop v g n i a)
  | 0, _, _ => rfl
  | n + 1, i, _ => same_bind (same_refl _) fun _ => same_bind (h _ _) fun _ =>
      same_reduceLanes v h n (i + 1) _

theorem same_foldlM {β τ : Type} {f g : τ → β → Res τ} (h : ∀ a b, Same (f a b) (g a b)) :
    ∀ (l : List β) (a : τ), Same (l.foldlM f a) (l.foldlM g a)
  | [], _ => rfl
  | b :: l, a => by
    rw [List.foldlM_cons, List.foldlM_cons]
    exact same_bind (h a b) fun _ => same_foldlM h l _

theorem same_coalesceLoop (u : Nat) (eq : α → α → Bool) (v : Vector α w) : ∀ n i : Nat,
    Same (Packed.coalesceLoop eq (debugOf u) v n i) (Packed.coalesceLoop eq (releaseOf u) v n i)
  | 0, _ => rfl
  | n + 1, i => by
    unfold Packed.coalesceLoop
    refine agree_extra extract_ne_ub extract_ne_hang fun _ => ?_
    refine agree_extra extract_ne_ub extract_ne_hang fun _ => ?_
    refine agree_extra (assert_ne_ub _) (assert_ne_hang _) fun _ => ?_
    exact same_coalesceLoop u eq v n (i + 1)

theorem same_addLanes (u : Nat) (k : Kind) (x : Vector (BitVec n) w) : ∀ l : List Nat,
    Same (addLanes (debugOf u) k x l) (addLanes (releaseOf u) k x l)
  | [] => trivial
  | _ :: _ => same_bind (same_refl _) fun _ => same_foldlM (fun _ _ => same_bind (same_refl _) fun _ =>
      same_overflowCheck u _ _ _) _ _

end Rules

section Claims
variable {α : Type} {w n : Nat}

/-- **C146**: the methods of `Packed` (src/vecs.rs), with any closures and with any scalar `*` compiled
for the two builds. -/
theorem C146_packed (u : Nat) (v : Vector α w) (l : List α) (i : Nat) (e : α) :
    Same (Packed.loadUnchecked (w := w) (debugOf u) l i) (Packed.loadUnchecked (releaseOf u) l i) ∧
    Same (Packed.storeUnchecked (debugOf u) v l i) (Packed.storeUnchecked (releaseOf u) v l i) ∧
    Same (Packed.extractUnchecked (debugOf u) v i) (Packed.extractUnchecked (releaseOf u) v i) ∧
    Same (Packed.replaceUnchecked (debugOf u) v i e) (Packed.replaceUnchecked (releaseOf u) v i e) ∧
    (∀ eq, Same (Packed.coalesce eq (debugOf u) v) (Packed.coalesce eq (releaseOf u) v)) ∧
    (∀ (τ : Type) (a : τ) (f g : τ → α → Res τ), (∀ a x, Same (f a x) (g a x)) →
      Same (Packed.scalarReduce v a f) (Packed.scalarReduce v a g)) ∧
    (∀ f g : α → α → Res α, (∀ a x, Same (f a x) (g a x)) →
      Same (Packed.product e f v) (Packed.product e g v)) :=
  ⟨same_loadUnchecked _ _, same_storeUnchecked _ _ _, same_extractUnchecked _ _,
    same_replaceUnchecked _ _ _,
    fun eq => same_bind (same_coalesceLoop u eq v _ _) fun _ => same_refl _,
    fun _ _ _ _ h => same_reduceLanes v h _ _ _, fun _ _ h => same_reduceLanes v h _ _ _⟩

/-- **C146**: the scalar operations of the lanes, and the lane-wise and horizontal fallbacks made of
them. -/
theorem C146_lanes (u : Nat) (k : Kind) (o : Fn) (idx : List Nat) (a b : Vector (BitVec n) w) :
    (∀ x y : BitVec n, Same (o.eval (debugOf u) k x y) (o.eval (releaseOf u) k x y)) ∧
    Same (binaryFallback (o.eval (debugOf u) k) idx a b) (binaryFallback (o.eval (releaseOf u) k) idx a b) ∧
    Same (hop (o.eval (debugOf u) k) idx a b) (hop (o.eval (releaseOf u) k) idx a b) := by
  have h : ∀ x y : BitVec n, Same (o.eval (debugOf u) k x y) (o.eval (releaseOf u) k x y) := fun x y => by
    cases o with
    | add => exact agree_ite trivial (same_overflowCheck u _ _ _)
    | sub => exact agree_ite trivial (same_overflowCheck u _ _ _)
    | _ => exact same_refl _
  have h' : ∀ (v v' : Vector (BitVec n) w) (i j : Nat), Same
      (do let x ← Packed.extract v i; let y ← Packed.extract v' j; o.eval (debugOf u) k x y)
      (do let x ← Packed.extract v i; let y ← Packed.extract v' j; o.eval (releaseOf u) k x y) :=
    fun _ _ _ _ => same_bind (same_refl _) fun _ => same_bind (same_refl _) fun _ => h _ _
  exact ⟨h, same_newLanes (each_map (fun i => h' a b i i) idx),
    same_newLanes (each_flatMap (fun p : Nat × Nat => .cons (h' a a p.1 p.2) (.cons (h' b b p.1 p.2) .nil)) _)⟩

/-- **C146**: merges and partitions. -/
theorem C146_merge (u : Nat) (v v' : Vector α w) (a b : Vector (BitVec n) w) (x y : BitVec n) (o : Nat) :
    Same (Packed.mergePartitioned (debugOf u) v v' o) (Packed.mergePartitioned (releaseOf u) v v' o) ∧
    Same (mergeHalvesFallback (debugOf u) v v') (mergeHalvesFallback (releaseOf u) v v') ∧
    Same (mergeInterleavedFallback (debugOf u) v v') (mergeInterleavedFallback (releaseOf u) v v') ∧
    Same (partitionMask (n := n) (w := w) (debugOf u) o) (partitionMask (releaseOf u) o) ∧
    Same (partitionBlend (w := w) (debugOf u) x y o) (partitionBlend (releaseOf u) x y o) ∧
    Same (mergePartitionedBlend (debugOf u) a b o) (mergePartitionedBlend (releaseOf u) a b o) :=
  ⟨same_mergePartitioned _ _ _, same_newLanes (each_append (each_map (fun _ =>
    same_extractUnchecked _ _) _) (each_map (fun _ => same_extractUnchecked _ _) _)),
    same_newLanes (each_flatMap (fun _ => .cons (same_extractUnchecked _ _)
      (.cons (same_extractUnchecked _ _) .nil)) _), same_partitionMask u o,
    same_bind (same_partitionMask u o) fun _ => rfl, same_mergeBlend u a b o⟩

/-- **C146**: `destride_two` with SSSE3. -/
theorem C146_destride (u : Nat) (blend : Bool) (a b : Vector (BitVec 8) 16) :
    Same (destrideTwoSsse3 blend (debugOf u) a b) (destrideTwoSsse3 blend (releaseOf u) a b) := by
  have h : ∀ x y : Vector (BitVec 8) 16,
      Same (mergeHalves blend (debugOf u) x y) (mergeHalves blend (releaseOf u) x y) := fun x y =>
    agree_ite rfl (C146_merge (n := 8) u x y x y 0 0 0).2.1
  unfold destrideTwoSsse3
  generalize X86.shuffleEpi8 a _ = p
  generalize X86.shuffleEpi8 b _ = q
  exact same_bind (h _ _) fun _ => same_bind (h _ _) fun _ => same_refl _

/-- **C146**: sums, in the fallback and in every version with instructions. -/
theorem C146_sum (u : Nat) (k : Kind) (v : Vector (BitVec n) w) (b : Vector (BitVec 8) w) (idx : List Nat)
    (s : Vector (BitVec 16) 16) (t : Vector (BitVec 32) 8)
    (up : Vector (BitVec 16) 16 → Res (Vector (BitVec 32) 8 × Vector (BitVec 32) 8)) :
    Same (sumFallback (debugOf u) k v) (sumFallback (releaseOf u) k v) ∧
    Same (sumUpcastFallback (debugOf u) k v) (sumUpcastFallback (releaseOf u) k v) ∧
    Same (sumU8 (debugOf u) idx b) (sumU8 (releaseOf u) idx b) ∧
    Same (sumUpcastU8 (debugOf u) idx b) (sumUpcastU8 (releaseOf u) idx b) ∧
    Same (sumI16x16 (debugOf u) s) (sumI16x16 (releaseOf u) s) ∧
    Same (sumI32x8 (debugOf u) t) (sumI32x8 (releaseOf u) t) ∧
    Same (sumU16x16 (debugOf u) up s) (sumU16x16 (releaseOf u) up s) ∧
    Same (sumUpcast16x16 (debugOf u) up s) (sumUpcast16x16 (releaseOf u) up s) := by
  have h : Same (sum16x16 (debugOf u) up s) (sum16x16 (releaseOf u) up s) := by
    unfold sum16x16
    refine same_bind (same_refl _) fun ab => ?_
    generalize hadd0 4 (hadd0 4 ab.1) = x
    generalize hadd0 4 (hadd0 4 ab.2) = y
    refine same_bind (same_addLanes u _ _ _) fun _ => same_bind (same_refl _) fun _ => ?_
    exact same_bind (same_overflowCheck u _ _ _) fun _ => same_bind (same_refl _) fun _ =>
      same_overflowCheck u _ _ _
  refine ⟨?_, ?_, ?_, ?_, ?_, ?_, ?_, ?_⟩
  · exact same_reduceLanes v (fun _ _ => same_overflowCheck u _ _ _) _ _ _
  · exact same_reduceLanes v (fun _ _ => same_overflowCheck u _ _ _) _ _ _
  · exact same_bind (same_addLanes u _ _ _) fun _ => same_refl _
  · exact same_bind (same_addLanes u _ _ _) fun _ => same_refl _
  · unfold sumI16x16
    generalize hadd0 8 _ = x
    exact same_addLanes u .i x [0, 8]
  · unfold sumI32x8
    generalize hadd0 4 _ = x
    exact same_addLanes u .i x [0, 4]
  · exact same_bind h fun _ => same_refl _
  · exact same_bind h fun _ => same_refl _

/-- **C146**: population counts. -/
theorem C146_popcnt (u : Nat) (idx : List Nat) (v : Vector (BitVec 8) w) (width size : Nat) :
    Same (popcntShuffle (debugOf u) idx v) (popcntShuffle (releaseOf u) idx v) ∧
    Same (popcntFallback (debugOf u) v) (popcntFallback (releaseOf u) v) ∧
    (∀ x y : Res Nat, Same x y → Same (countZeroes (debugOf u) width size x)
      (countZeroes (releaseOf u) width size y)) :=
  ⟨same_bind (same_bind (same_addLanes u _ _ _) fun _ => same_refl _) fun _ => same_refl _,
    same_reduceLanes _ (fun _ _ => same_uadd _ _) _ _ _,
    fun _ _ h => same_bind (same_umul _ _) fun _ => same_bind (same_umul _ _) fun _ =>
      same_bind h fun _ => same_usub _ _⟩

end Claims

/-- A horizontal sum which overflows in one lane: the debug build panics, the release build wraps. One
which does not overflow is the same in both. -/
example : hop (Fn.eval (debugOf (2 ^ 64)) .u .add) [0, 1] #v[200#8, 100] #v[1, 2] = panic ∧
    hop (Fn.eval (releaseOf (2 ^ 64)) .u .add) [0, 1] #v[200#8, 100] #v[1, 2] = ok #v[44, 3] ∧
    hop (Fn.eval (debugOf (2 ^ 64)) .u .add) [0, 1] #v[20#8, 10] #v[1, 2] = ok #v[30, 3] ∧
    hop (Fn.eval (releaseOf (2 ^ 64)) .u .add) [0, 1] #v[20#8, 10] #v[1, 2] = ok #v[30, 3] := by
  decide +kernel

/-- `coalesce` of different lanes: the debug build panics, the release build returns the first. -/
example : Packed.coalesce (· == ·) (debugOf (2 ^ 64)) #v[1#8, 2] = panic ∧
    Packed.coalesce (· == ·) (releaseOf (2 ^ 64)) #v[1#8, 2] = ok 1 := by
  decide +kernel

end Faster
