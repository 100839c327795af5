import Verif.Props.Collect
/-
C55: composed maps.
-/
namespace Faster
open Res SIMDSized SIMDIterable SIMDIterator

section
variable {I σ τ α β γ : Type} {w w' w'' : Nat} [SIMDSized I] [SIMDIterator I α w]
  [Packable α] [Packable β] [Packable γ]

/-- `|v| g(f(v))` for closures with separate captured state. -/
def composeFn (f : FnMut σ (Vector α w) (Vector β w')) (g : FnMut τ (Vector β w') (Vector γ w'')) :
    FnMut (σ × τ) (Vector α w) (Vector γ w'') := fun (s, t) v => do
  let (u, s) ← f s v
  let (x, t) ← g t u
  ok (x, (s, t))

/-- The two nested maps corresponding to a state of the fused map. -/
def unfuse (f : FnMut σ (Vector α w) (Vector β w')) (g : FnMut τ (Vector β w') (Vector γ w''))
    (m : SIMDMap I (σ × τ) α w γ w'') : SIMDMap (SIMDMap I σ α w β w') τ β w' γ w'' :=
  ⟨⟨m.iter, m.st.1, f⟩, m.st.2, g⟩

/-- **C55**, `next`: the nested maps deliver the vector the fused map delivers, with
the same states of all closures; also the same failures. No restriction. -/
theorem C55_next (c : Cfg) (f : FnMut σ (Vector α w) (Vector β w'))
    (g : FnMut τ (Vector β w') (Vector γ w'')) (it : I) (s : σ) (t : τ) :
    next c (simdMap (simdMap it s f) t g) =
      next c (simdMap it (s, t) (composeFn f g)) >>= fun r => ok (r.1, unfuse f g r.2) := by
  simp only [simdMap, SIMDIterable.next, SIMDMap.next]
  cases SIMDIterable.next c it with
  | ok p =>
    obtain ⟨r, it'⟩ := p
    cases r with
    | none => rfl
    | some v =>
      simp only [ok_bind, composeFn, bind_assoc]
      cases f s v with
      | ok q =>
        simp only [ok_bind]
        cases g t q.1 <;> rfl
      | _ => rfl
  | _ => rfl

/-- **C55**, `end`: the same, including the number of unfilled lanes, if the
intermediate lane size divides the original one. The property is false when the
intermediate lanes are wider (`C55_false`), this is what is missing. -/
theorem C55_end_partial (c : Cfg) (f : FnMut σ (Vector α w) (Vector β w'))
    (g : FnMut τ (Vector β w') (Vector γ w'')) (it : I) (s : σ) (t : τ)
    (hβ : 0 < Packable.size β) (hγ : 0 < Packable.size γ)
    (hdvd : Packable.size β ∣ Packable.size α)
    (hu : ∀ v n it', end_ c it = ok (some (v, n), it') → n * Packable.size α < c.usize) :
    end_ c (simdMap (simdMap it s f) t g) =
      end_ c (simdMap it (s, t) (composeFn f g)) >>= fun r => ok (r.1, unfuse f g r.2) := by
  simp only [simdMap, SIMDIterator.end_, SIMDMap.end_]
  cases h : SIMDIterator.end_ c it with
  | ok p =>
    obtain ⟨r, it'⟩ := p
    cases r with
    | none => rfl
    | some q =>
      obtain ⟨v, n⟩ := q
      have h1 := hu v n it' h
      have h2 : n * Packable.size α / Packable.size β * Packable.size β = n * Packable.size α :=
        Nat.div_mul_cancel (Nat.dvd_mul_left_of_dvd hdvd n)
      simp only [ok_bind, composeFn, bind_assoc]
      rw [umul_ok h1]
      simp only [ok_bind]
      rw [udiv_ok hβ, udiv_ok hγ]
      simp only [ok_bind]
      cases f s v with
      | ok q =>
        simp only [ok_bind]
        rw [umul_ok (by omega)]
        simp only [ok_bind]
        rw [udiv_ok hγ, h2]
        simp only [ok_bind]
        cases g t q.1 <;> rfl
      | _ => rfl
  | _ => rfl

/-- **C55**, `end`, exactly: where the iterator below returns a vector with `n` unfilled lanes, the
closures are called alike, and the nested maps report `n * size α / size β * size β / size γ`
unfilled lanes, the fused map `n * size α / size γ`. Where it returns nothing or fails, so do both. -/
theorem C55_end_exact (c : Cfg) (f : FnMut σ (Vector α w) (Vector β w'))
    (g : FnMut τ (Vector β w') (Vector γ w'')) (it : I) (s : σ) (t : τ)
    (hβ : 0 < Packable.size β) (hγ : 0 < Packable.size γ)
    (hu : ∀ v n it', end_ c it = ok (some (v, n), it') → n * Packable.size α < c.usize) :
    end_ c (simdMap (simdMap it s f) t g) = (end_ c it >>= fun (r, it) => match r with
      | none => ok (none, simdMap (simdMap it s f) t g)
      | some (v, n) => f s v >>= fun (u, s) => g t u >>= fun (x, t) =>
        ok (some (x, n * Packable.size α / Packable.size β * Packable.size β / Packable.size γ),
          simdMap (simdMap it s f) t g)) ∧
    end_ c (simdMap it (s, t) (composeFn f g)) = (end_ c it >>= fun (r, it) => match r with
      | none => ok (none, simdMap it (s, t) (composeFn f g))
      | some (v, n) => f s v >>= fun (u, s) => g t u >>= fun (x, t) =>
        ok (some (x, n * Packable.size α / Packable.size γ), simdMap it (s, t) (composeFn f g))) := by
  simp only [simdMap, SIMDIterator.end_, SIMDMap.end_]
  cases h : SIMDIterator.end_ c it with
  | ok p =>
    obtain ⟨r, it'⟩ := p
    cases r with
    | none => exact ⟨rfl, rfl⟩
    | some q =>
      obtain ⟨v, n⟩ := q
      have h1 := hu v n it' h
      have h2 : n * Packable.size α / Packable.size β * Packable.size β ≤ n * Packable.size α :=
        Nat.div_mul_le_self ..
      simp only [ok_bind, composeFn, bind_assoc]
      rw [umul_ok h1]
      simp only [ok_bind]
      rw [udiv_ok hβ, udiv_ok hγ]
      simp only [ok_bind]
      cases f s v with
      | ok q =>
        simp only [ok_bind]
        rw [umul_ok (by omega)]
        simp only [ok_bind]
        rw [udiv_ok hγ]
        simp only [ok_bind]
        cases g t q.1 <;> constructor <;> first | rfl | trivial
      | _ => constructor <;> first | rfl | trivial
  | _ => exact ⟨rfl, rfl⟩

/-- **C55**: the two counts differ exactly where the rounding down to intermediate lanes drops
output lanes; the nested maps never report more. They agree if the unfilled bytes are a whole number
of intermediate lanes. -/
theorem C55_counts (b p q : Nat) :
    b / p * p / q ≤ b / q ∧ (p ∣ b → b / p * p / q = b / q) ∧
    (b / p * p / q = b / q ↔ b / q * q ≤ b / p * p ∨ q = 0) := by
  have h : b / p * p ≤ b := Nat.div_mul_le_self ..
  refine ⟨Nat.div_le_div_right h, fun h => by rw [Nat.div_mul_cancel h], ?_⟩
  rcases Nat.eq_zero_or_pos q with rfl | hq
  · simp
  · constructor
    · intro e
      rw [← e]
      exact Or.inl (Nat.div_mul_le_self ..)
    · rintro (e | e)
      · exact Nat.le_antisymm (Nat.div_le_div_right h) ((Nat.le_div_iff_mul_le hq).2 e)
      · omega

end

/-- **C55 is false** in general: with three unfilled `u32` lanes, going through
`u64` lanes and back the nested maps report two, the fused map three. -/
theorem C55_false : ∃ (f : Vector (BitVec 32) 4 → Vector (BitVec 64) 2)
    (g : Vector (BitVec 64) 2 → Vector (BitVec 32) 4),
    (do let (_, out) ← scalarCollect debug64 9 (simdMap (simdMap
          (simdIter (w := 4) [7#32] (Vector.replicate 4 0)) () (pureFn f)) () (pureFn g))
        ok out.length) = ok 2 ∧
    (do let (_, out) ← scalarCollect debug64 9 (simdMap
          (simdIter (w := 4) [7#32] (Vector.replicate 4 0)) ((), ()) (composeFn (pureFn f) (pureFn g)))
        ok out.length) = ok 1 :=
  ⟨fun v => #v[v[1] ++ v[0], v[3] ++ v[2]],
    fun v => #v[v[0].setWidth 32, (v[0] >>> 32).setWidth 32, v[1].setWidth 32, (v[1] >>> 32).setWidth 32],
    by decide +kernel, by decide +kernel⟩

example : Packable.size (BitVec 8) ∣ Packable.size (BitVec 32) := by decide

end Faster
