import Verif.Base100Soft
import Verif.Props.Base100
import Verif.Props.Checked
/-
C99 on targets without vector instructions: in debug builds the vector version of the base100 encoder
panics exactly if there is a byte of at least 201.
-/
namespace Faster
open Res

variable {q : Nat}

theorem binop_splat {n w : Nat} (op : BitVec n → BitVec n → Res (BitVec n)) (f : BitVec n → BitVec n)
    (y zero : BitVec n) (a : Vector (BitVec n) w) (h : ∀ x ∈ a.toList, op x y = ok (f x)) :
    Soft.binop op zero a (Packed.splat y) = ok (a.map f) := by
  refine C59_lanes op zero a _ _ fun i hi => ?_
  simp only [Packed.splat, Vector.getElem_replicate, Vector.getElem_map]
  exact h _ (by simp)

theorem binop_splat_panic {n w : Nat} (op : BitVec n → BitVec n → Res (BitVec n))
    (y zero : BitVec n) (a : Vector (BitVec n) w)
    (ht : ∀ x, op x y = panic ∨ ∃ z, op x y = ok z) (h : ∃ x ∈ a.toList, op x y = panic) :
    Soft.binop op zero a (Packed.splat y) = panic := by
  have key : ∀ m, m ≤ w → (∀ j (hj : j < m) (hw : j < w), ∃ z, op a[j] y = ok z) ∨
      ∃ i, ∃ (hi : i < w), op a[i] y = panic ∧ ∀ j (hj : j < i), ∃ z, op (a[j]'(by omega)) y = ok z := by
    intro m
    induction m with
    | zero => exact fun _ => .inl fun j hj => absurd hj (by omega)
    | succ m ih =>
      intro hm
      rcases ih (by omega) with h1 | h1
      · rcases ht (a[m]'(by omega)) with h2 | h2
        · exact .inr ⟨m, by omega, h2, fun j hj => h1 j hj (by omega)⟩
        · refine .inl fun j hj hw => ?_
          by_cases e : j = m
          · subst e; exact h2
          · exact h1 j (by omega) hw
      · exact .inr h1
  rcases key w (Nat.le_refl _) with h1 | ⟨i, hi, h1, h2⟩
  · obtain ⟨x, hx, e⟩ := h
    obtain ⟨i, hi, rfl⟩ := List.getElem_of_mem hx
    simp only [Vector.length_toList] at hi
    obtain ⟨z, hz⟩ := h1 i hi hi
    rw [Vector.getElem_toList, hz] at e
    cases e
  · exact C59_panics op zero a _ i hi
      (fun j hj => by simpa [Packed.splat] using h2 j hj) (by simpa [Packed.splat] using h1)

/-- Additions of unsigned numbers whose sum fits. -/
theorem addInt_fits {n : Nat} (c : Cfg) (x y : BitVec n) (h : x.toNat + y.toNat < 2 ^ n) :
    addInt c .u x y = ok (x + y) := by
  unfold addInt overflowCheck
  rw [if_pos]
  simp only [Kind.lo, Kind.hi, Kind.value]
  have : (2 : Int) ^ n = ((2 ^ n : Nat) : Int) := by norm_cast
  rw [this]
  omega

theorem addInt_release {n : Nat} (c : Cfg) (hc : c.debug = false) (x y : BitVec n) :
    addInt c .u x y = ok (x + y) := by
  unfold addInt overflowCheck
  rw [hc]
  split <;> rfl

theorem addInt_over {n : Nat} (c : Cfg) (hc : c.debug = true) (x y : BitVec n)
    (h : 2 ^ n ≤ x.toNat + y.toNat) : addInt c .u x y = panic := by
  unfold addInt overflowCheck
  rw [if_neg, if_pos hc]
  simp only [Kind.lo, Kind.hi, Kind.value]
  have : (2 : Int) ^ n = ((2 ^ n : Nat) : Int) := by norm_cast
  rw [this]
  omega

/-- One call of the closure with software vectors. -/
theorem base100BodySoft_eq {o : Base100Ops q} (ho : Base100Right o) (c : Cfg)
    (st : List (BitVec 8) × Nat) (v : Vector (BitVec 8) (4 * q)) :
    base100BodySoft o c st v =
      if c.debug = true ∧ ∃ x ∈ v.toList, 201 ≤ x.toNat then panic else base100Body o c st v := by
  obtain ⟨out, i⟩ := st
  obtain ⟨a, b, h1, hab⟩ := ho.up8 v
  -- the sixteen-bit lanes are bytes, so nothing overflows
  have hsmall : ∀ x ∈ a.toList ++ b.toList, x.toNat < 256 := by
    intro x hx
    rw [hab] at hx
    obtain ⟨y, -, rfl⟩ := List.mem_map.mp hx
    have := y.isLt
    rw [BitVec.toNat_setWidth]
    exact Nat.lt_of_le_of_lt (Nat.mod_le _ _) this
  have part : ∀ (a : Vector (BitVec 16) (2 * q)), (∀ x ∈ a.toList, x.toNat < 256) →
      ∀ {β : Type} (k : Vector (BitVec 16) (2 * q) → Res β), (do
        let a1 ← Soft.binop (addInt c .u) 0#16 a (Packed.splat 55#16)
        let a2 ← Soft.binop divUint 0#16 a1 (Packed.splat 64#16)
        let a3 ← Soft.binop (addInt c .u) 0#16 a2 (Packed.splat 143#16)
        k a3) = k (a.map fun x => (x + 55#16) / 64#16 + 143#16) := by
    intro a ha β k
    rw [binop_splat _ (· + 55#16) _ _ _ fun x hx => addInt_fits c _ _ (by
      have := ha x hx
      simp; omega), ok_bind,
      binop_splat _ (· / 64#16) _ _ _ fun x hx => by simp [divUint], ok_bind,
      binop_splat _ (· + 143#16) _ _ _ fun x hx => addInt_fits c _ _ (by
        simp only [Vector.toList_map, List.mem_map] at hx
        obtain ⟨_, ⟨y, hy, rfl⟩, rfl⟩ := hx
        have := ha y hy
        have e : ((y + 55#16) / 64#16).toNat ≤ (y + 55#16).toNat := by
          rw [BitVec.toNat_udiv]
          exact Nat.div_le_self _ _
        have e2 : (y + 55#16).toNat = y.toNat + 55 := by
          rw [BitVec.toNat_add]
          simp; omega
        simp only [BitVec.toNat_ofNat]
        omega), ok_bind]
    congr 1
    simp [Vector.map_map, Function.comp_def]
  obtain ⟨third, h2⟩ := ho.down16 (a.map fun x => (x + 55#16) / 64#16 + 143#16)
    (b.map fun x => (x + 55#16) / 64#16 + 143#16)
  simp only [base100BodySoft, base100Body, h1, ok_bind,
    part a fun x hx => hsmall x (List.mem_append_left _ hx),
    part b fun x hx => hsmall x (List.mem_append_right _ hx), h2]
  split
  · rename_i h
    rw [binop_splat_panic, panic_bind]
    · intro x
      by_cases hx : x.toNat + 55 < 256
      · exact .inr ⟨_, addInt_fits c x 55#8 (by simpa using hx)⟩
      · exact .inl (addInt_over c h.1 x 55#8 (by simp; omega))
    · obtain ⟨x, hx, h3⟩ := h.2
      exact ⟨x, hx, addInt_over c h.1 x 55#8 (by simp; omega)⟩
  · rename_i h
    rw [binop_splat _ (· + 55#8) _ _ _ fun x hx => by
      cases hd : c.debug with
      | true =>
        refine addInt_fits c _ _ ?_
        have : ¬ 201 ≤ x.toNat := fun h4 => h ⟨hd, x, hx, h4⟩
        simp; omega
      | false => exact addInt_release c hd _ _, ok_bind,
      binop_splat _ (· &&& 0x3f#8) _ _ _ fun x hx => rfl, ok_bind,
      binop_splat _ (· + 128#8) _ _ _ fun x hx => addInt_fits c _ _ (by
        simp only [Vector.toList_map, List.mem_map] at hx
        obtain ⟨y, -, rfl⟩ := hx
        have : (y &&& 0x3f#8).toNat ≤ 63 := by
          rw [BitVec.toNat_and]
          exact Nat.and_le_right
        simp only [BitVec.toNat_ofNat] at this ⊢
        omega), ok_bind]
    simp only [Vector.map_map, Function.comp_def]

/-- All calls of the closure. -/
theorem base100_callAll_soft {o : Base100Ops q} (ho : Base100Right o) (hq : q % 2 = 0) (hq0 : 0 < q)
    (c : Cfg) : ∀ (vs : List (Vector (BitVec 8) (4 * q))) (out : List (BitVec 8)) (i : Nat),
    i ≤ out.length → out.length + 16 * q < c.usize →
    callAll (base100BodySoft o c) (out, i) vs =
      if c.debug = true ∧ ∃ x ∈ lanes vs, 201 ≤ x.toNat then panic
      else callAll (base100Body o c) (out, i) vs := by
  intro vs
  induction vs with
  | nil =>
    intro out i _ _
    rw [if_neg (by simp [lanes])]
    rfl
  | cons v vs ih =>
    intro out i hi hu
    simp only [callAll, base100BodySoft_eq ho, lanes_cons, List.mem_append]
    by_cases h1 : c.debug = true ∧ ∃ x ∈ v.toList, 201 ≤ x.toNat
    · rw [if_pos h1, if_pos ⟨h1.1, by obtain ⟨x, hx, h⟩ := h1.2; exact ⟨x, .inl hx, h⟩⟩]
      rfl
    · rw [if_neg h1, base100Body_eq ho hq hq0 c out i v hi hu]
      have hwl := base100WrongVec_length v.toList
      simp only [Vector.length_toList] at hwl
      by_cases h2 : i + 16 * q ≤ out.length
      · have hl := splice_length out i (base100WrongVec v.toList) (by omega)
        rw [if_pos h2, ok_bind]
        simp only
        rw [ih _ _ (by omega) (by omega)]
        by_cases h3 : c.debug = true ∧ ∃ x ∈ lanes vs, 201 ≤ x.toNat
        · rw [if_pos h3, if_pos ⟨h3.1, by obtain ⟨x, hx, h⟩ := h3.2; exact ⟨x, .inr hx, h⟩⟩]
          rfl
        · rw [if_neg h3, if_neg, ok_bind]
          rintro ⟨hd, x, hx | hx, h⟩
          · exact h1 ⟨hd, x, hx, h⟩
          · exact h3 ⟨hd, x, hx, h⟩
      · rw [if_neg h2]
        simp only [panic_bind]
        split <;> rfl

/-- **C99** on targets without vector instructions: in debug builds the vector version panics exactly
if there is a byte of at least 201 or no room; else, and in release builds, it writes what the version
with vector instructions writes. -/
theorem C99_soft {o : Base100Ops q} (ho : Base100Right o) (hq : q % 2 = 0) (hq0 : 0 < q)
    (c : Cfg) (fuel : Nat) (data out : List (BitVec 8))
    (hlen : data.length + 4 * q < c.usize) (hu : out.length + 16 * q < c.usize)
    (hfuel : data.length / (4 * q) < fuel) :
    base100SimdSoft o c fuel data out =
      if c.debug = true ∧ ∃ x ∈ data, 201 ≤ x.toNat then panic else base100Simd o c fuel data out := by
  unfold base100SimdSoft base100Simd
  rw [C02_do_each_calls c fuel data _ _ _ (by omega) hlen hfuel,
    C02_do_each_calls c fuel data _ _ _ (by omega) hlen hfuel,
    base100_callAll_soft ho hq hq0 c _ out 0 (by omega) hu]
  have hmem : (∃ x ∈ lanes (calls (4 * q) (Packed.splat 0#8) data), 201 ≤ x.toNat) ↔
      ∃ x ∈ data, 201 ≤ x.toNat := by
    constructor
    · rintro ⟨x, hx, h⟩
      rcases (mem_lanes_calls (by omega) _ data x).mp hx with hx | hx
      · exact ⟨x, hx, h⟩
      · have : x = 0#8 := by
          unfold padLanes at hx
          split at hx
          · cases hx
          · have := List.mem_of_mem_take hx
            simp only [Packed.splat, Vector.toList_replicate, List.mem_replicate] at this
            exact this.2
        subst this
        simp at h
    · rintro ⟨x, hx, h⟩
      exact ⟨x, (mem_lanes_calls (by omega) _ data x).mpr (.inl hx), h⟩
  by_cases h : c.debug = true ∧ ∃ x ∈ data, 201 ≤ x.toNat
  · rw [if_pos h, if_pos ⟨h.1, hmem.mpr h.2⟩]
    rfl
  · rw [if_neg h, if_neg fun h2 => h ⟨h2.1, hmem.mp h2.2⟩]

/-- The scalar version never panics with room for its output, so on these targets the two differ even
in whether they return: on any data with a byte of at least 201. -/
theorem C99_soft_panics {o : Base100Ops q} (ho : Base100Right o) (hq : q % 2 = 0) (hq0 : 0 < q)
    (c : Cfg) (hc : c.debug = true) (fuel : Nat) (data out : List (BitVec 8))
    (hlen : data.length + 4 * q < c.usize) (hu : 4 * data.length + out.length + 16 * q < c.usize)
    (hfuel : data.length / (4 * q) < fuel) (hfit : 4 * data.length ≤ out.length) (x : BitVec 8)
    (hx : x ∈ data) (h : 201 ≤ x.toNat) :
    base100SimdSoft o c fuel data out = panic ∧
      base100Scalar c data out = ok (base100 data ++ out.drop (4 * data.length)) := by
  refine ⟨?_, ?_⟩
  · rw [C99_soft ho hq hq0 c fuel data out hlen (by omega) hfuel, if_pos ⟨hc, x, hx, h⟩]
  · rw [C99_scalar c data out (by omega), if_pos hfit]

/-- The operations of software vectors of 16 bytes. -/
theorem base100Soft_right : Base100Right (base100Of 4 debug64 upcastRows[0] upcastRows[2] downcastRows[6]
    swapRows[5] false false false false false) :=
  base100Of_right (.inl rfl) debug64 _ _ _ _ _ _ _ _ _ (by simp) (by simp) (by simp) (by simp) (by decide)
    (by decide) (by decide) (by decide)

set_option maxRecDepth 4000 in
/-- `C99_soft` on one vector and a half. -/
example := C99_soft base100Soft_right (by decide) (by decide) debug64 9 (List.replicate 24 123)
  (List.replicate 130 0) (by decide) (by decide) (by decide)

set_option maxRecDepth 4000 in
/-- A last byte of 201 is enough to panic. -/
example := C99_soft_panics base100Soft_right (by decide) (by decide) debug64 rfl 9
  (List.replicate 23 123 ++ [201]) (List.replicate 130 0) (by decide) (by decide) (by decide) (by decide)
  201 (by decide) (by decide)

end Faster
