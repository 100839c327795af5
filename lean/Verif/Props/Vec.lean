import Verif.Props.Collect
import Verif.Intrin.Arith
/-
C17, C53: operations of the `Packed` trait.
-/
namespace Faster
open Res

/-! ### C17 -/

/-- **C17**, load: the elements from `i` on if there are `w` of them, else a
panic. -/
theorem C17_load {α : Type} {w : Nat} (data : List α) (i : Nat) :
    (i + w ≤ data.length → ∃ v : Vector α w, Packed.load data i = ok v ∧
      ∀ j (hj : j < w), data[i + j]? = some v[j]) ∧
    (¬ i + w ≤ data.length → (Packed.load data i : Res (Vector α w)) = panic) := by
  constructor
  · intro h
    refine ⟨_, load_ok h, ?_⟩
    intro j hj
    rw [List.getElem?_eq_getElem (by omega)]
    simp [windowAt]
  · intro h
    simp only [Packed.load, sliceFrom]
    split
    · simp only [ok_bind, Packed.fromSlice]
      have : ¬ w ≤ data.length - i := by omega
      simp [this]
    · rfl

/-- **C17**, store: exactly the elements `i, …, i+w-1` change, to the lanes; a
panic if there are fewer. -/
theorem C17_store {α : Type} {w : Nat} (v : Vector α w) (data : List α) (i : Nat) :
    (i + w ≤ data.length → ∃ data', Packed.store v data i = ok data' ∧
      data'.length = data.length ∧
      (∀ j (hj : j < w), data'[i + j]? = some v[j]) ∧
      (∀ j, j < i ∨ i + w ≤ j → data'[j]? = data[j]?)) ∧
    (¬ i + w ≤ data.length → Packed.store v data i = panic) := by
  constructor
  · intro h
    have hv : i + v.toList.length ≤ data.length := by simpa using h
    refine ⟨_, store_ok h, splice_length _ _ _ hv, ?_, ?_⟩
    · intro j hj
      rw [splice_getElem? _ _ _ hv, if_neg (by omega), if_pos (by simp; omega),
        List.getElem?_eq_getElem (by simp; omega)]
      simp
    · intro j hj
      rw [splice_getElem? _ _ _ hv]
      simp only [Vector.length_toList]
      rcases hj with hj | hj
      · rw [if_pos hj]
      · rw [if_neg (by omega), if_neg (by omega)]
  · intro h
    simp only [Packed.store, sliceFrom]
    split
    · have : ¬ w ≤ data.length - i := by omega
      simp [this]
    · rfl

/-- **C17**: load after store. -/
theorem C17_load_store {α : Type} {w : Nat} (v : Vector α w) (data : List α) (i : Nat)
    (h : i + w ≤ data.length) :
    (do Packed.load (← Packed.store v data i) i) = ok v := by
  have hv : i + v.toList.length ≤ data.length := by simpa using h
  have hl := splice_length _ _ _ hv
  rw [store_ok h]
  simp only [ok_bind]
  rw [load_ok (by omega)]
  congr 1
  ext j hj
  simp only [windowAt, Vector.getElem_ofFn]
  have := splice_getElem? data i v.toList hv (i + j)
  rw [if_neg (by omega), if_pos (by simp; omega), List.getElem?_eq_getElem (by omega),
    List.getElem?_eq_getElem (by simp; omega)] at this
  simpa using this

/-- **C17**: store after load. -/
theorem C17_store_load {α : Type} {w : Nat} (data : List α) (i : Nat)
    (h : i + w ≤ data.length) :
    (do Packed.store (w := w) (← Packed.load data i) data i) = ok data := by
  rw [load_ok h]
  simp only [ok_bind]
  rw [store_ok h]
  congr 1
  apply List.ext_getElem?
  intro j
  rw [splice_getElem? _ _ _ (by simpa using h), windowAt_toList]
  split
  · rfl
  · split
    · rename_i h1 h2
      rw [List.getElem?_take_of_lt (by simp at h2; omega), List.getElem?_drop]
      congr 1; omega
    · rfl

/-- **C17**: the unchecked versions agree with the checked ones inside the
bounds, in both build profiles. -/
theorem C17_unchecked {α : Type} {w : Nat} (c : Cfg) (v : Vector α w) (data : List α) (i : Nat)
    (h : i + w ≤ data.length) :
    (Packed.loadUnchecked c data i : Res (Vector α w)) = Packed.load data i ∧
    Packed.storeUnchecked c v data i = Packed.store v data i := by
  rw [loadUnchecked_ok h, load_ok h, storeUnchecked_ok h, store_ok h]
  exact ⟨rfl, rfl⟩

example : (Packed.load [1, 2, 3, 4] 1 : Res (Vector Nat 2)) = ok #v[2, 3] ∧
    (Packed.load [1, 2, 3, 4] 3 : Res (Vector Nat 2)) = panic ∧
    (Packed.load [1, 2, 3, 4] 5 : Res (Vector Nat 2)) = panic ∧
    Packed.store #v[8, 9] [1, 2, 3, 4] 1 = ok [1, 8, 9, 4] := by decide +kernel

/-! ### C53 -/

theorem coalesceLoop_release {α : Type} {w : Nat} (eq : α → α → Bool) (c : Cfg) (v : Vector α w)
    (hc : c.debug = false) : ∀ n i, Packed.coalesceLoop eq c v n i = ok () := by
  intro n
  induction n with
  | zero => intro i; rfl
  | succ n ih => intro i; simp [Packed.coalesceLoop, hc, ih]

theorem coalesceLoop_debug {α : Type} {w : Nat} (eq : α → α → Bool) (c : Cfg) (v : Vector α w)
    (hc : c.debug = true) : ∀ n i, i + n = w → 0 < i →
    ((∀ j, (h : i ≤ j) → (h2 : j < w) → eq v[j - 1] v[j] = true) →
      Packed.coalesceLoop eq c v n i = ok ()) ∧
    ((¬ ∀ j, (h : i ≤ j) → (h2 : j < w) → eq v[j - 1] v[j] = true) →
      Packed.coalesceLoop eq c v n i = panic) := by
  intro n
  induction n with
  | zero =>
    intro i h hi
    exact ⟨fun _ => rfl, fun h2 => absurd (by intro j h1 h2; omega) h2⟩
  | succ n ih =>
    intro i h hi
    simp only [Packed.coalesceLoop, hc, if_true, Packed.extract]
    rw [dif_pos (by omega), dif_pos (by omega)]
    simp only [ok_bind]
    obtain ⟨ih1, ih2⟩ := ih (i + 1) (by omega) (by omega)
    by_cases he : eq v[i - 1] v[i] = true
    · simp only [he, assert_true, ok_bind]
      constructor
      · intro h1
        exact ih1 fun j h2 h3 => h1 j (by omega) h3
      · intro h1
        refine ih2 fun h2 => h1 fun j h3 h4 => ?_
        by_cases hj : j = i
        · subst hj; exact he
        · exact h2 j (by omega) h4
    · rw [Bool.not_eq_true] at he
      simp only [he, assert_false, panic_bind]
      refine ⟨fun h1 => ?_, fun _ => trivial⟩
      have := h1 i (Nat.le_refl _) (by omega)
      rw [he] at this; cases this

/-- **C53**: `coalesce` returns lane 0; in debug builds it panics exactly when two neighbouring
lanes are not `==`. -/
theorem C53_coalesce_eq {α : Type} {w : Nat} (eq : α → α → Bool) (c : Cfg) (v : Vector α w)
    (hw : 0 < w) :
    Packed.coalesce eq c v =
      if c.debug = true ∧ ∃ i : Fin (w - 1), eq v[i.val] v[i.val + 1] = false then panic else ok v[0] := by
  simp only [Packed.coalesce, Packed.extract]
  rw [dif_pos hw]
  cases hc : c.debug
  · rw [coalesceLoop_release eq c v hc]; simp
  · obtain ⟨l1, l2⟩ := coalesceLoop_debug eq c v hc (w - 1) 1 (by omega) (by omega)
    by_cases h : ∃ i : Fin (w - 1), eq v[i.val] v[i.val + 1] = false
    · rw [if_pos ⟨rfl, h⟩, l2]
      · rfl
      · obtain ⟨⟨i, hi⟩, he⟩ := h
        intro h2
        have := h2 (i + 1) (by omega) (by omega)
        simp only [Nat.add_sub_cancel] at this
        rw [he] at this; cases this
    · rw [if_neg (by rintro ⟨_, h2⟩; exact h h2), l1]
      · rfl
      · intro j h1 h2
        cases he : eq v[j - 1] v[j] with
        | true => rfl
        | false =>
          obtain ⟨k, rfl⟩ : ∃ k, j = k + 1 := ⟨j - 1, by omega⟩
          exact absurd ⟨⟨k, by omega⟩, he⟩ h

/-- **C53**: `coalesce` inverts `splat` of a value which equals itself, in every build, and of any
value in release builds. -/
theorem C53_coalesce_splat {α : Type} {w : Nat} (eq : α → α → Bool) (c : Cfg) (x : α) (hw : 0 < w)
    (hx : c.debug = true → eq x x = true) :
    Packed.coalesce eq c (Packed.splat x : Vector α w) = ok x := by
  rw [C53_coalesce_eq eq c _ hw, if_neg]
  · simp [Packed.splat]
  · rintro ⟨h, i, he⟩
    simp only [Packed.splat, Vector.getElem_replicate] at he
    rw [hx h] at he; cases he

/-- **C53**, integers: in debug builds `coalesce` panics exactly when two lanes differ; otherwise it
returns the common value. In release builds it returns lane 0. -/
theorem C53_coalesce {α : Type} [DecidableEq α] {w : Nat} (c : Cfg) (v : Vector α w) (hw : 0 < w) :
    Packed.coalesce (fun a b => decide (a = b)) c v =
      if c.debug = true ∧ ∃ (i j : Fin w), v[i] ≠ v[j] then panic else ok v[0] := by
  rw [C53_coalesce_eq _ c v hw]
  have key : (∃ i : Fin (w - 1), decide (v[i.val] = v[i.val + 1]) = false) ↔
      ∃ (i j : Fin w), v[i] ≠ v[j] := by
    constructor
    · rintro ⟨i, he⟩
      exact ⟨⟨i, by omega⟩, ⟨i + 1, by omega⟩, by simpa using he⟩
    · rintro ⟨i, j, hij⟩
      rcases Classical.em (∃ i : Fin (w - 1), decide (v[i.val] = v[i.val + 1]) = false) with h | h
      · exact h
      · have h0 : ∀ n (hn : n < w), v[n] = v[0] := by
          intro n
          induction n with
          | zero => intro _; rfl
          | succ n ih =>
            intro hn
            rw [← ih (by omega)]
            rcases Classical.em (v[n] = v[n + 1]) with he | he
            · exact he.symm
            · exact absurd ⟨⟨n, by omega⟩, by simpa using he⟩ h
        exact absurd (by simp only [Fin.getElem_fin]; rw [h0 i i.isLt, h0 j j.isLt]) hij
  simp only [key]

/-- **C53** is false for floats: in debug builds `coalesce` panics for every constant vector of NaN. -/
theorem C53_false {n w : Nat} (c : Cfg) (x : BitVec n) (hx : fnan x = true) (hc : c.debug = true)
    (hw : 1 < w) : Packed.coalesce feq c (Packed.splat x : Vector (BitVec n) w) = panic := by
  rw [C53_coalesce_eq feq c _ (by omega), if_pos]
  exact ⟨hc, ⟨0, by omega⟩, by simp [Packed.splat, feq, hx]⟩

/-- **C53**, floats: `coalesce` inverts `splat` of everything but NaN. -/
theorem C53_coalesce_float_partial {n w : Nat} (c : Cfg) (x : BitVec n) (hx : fnan x = false)
    (hw : 0 < w) : Packed.coalesce feq c (Packed.splat x : Vector (BitVec n) w) = ok x :=
  C53_coalesce_splat feq c x hw fun _ => by simp [feq, hx]

/-- **C53**, floats: in debug builds, with more than one lane, `coalesce` panics exactly when a lane
is NaN or two lanes have different values (zeros of either sign have the same). -/
theorem C53_coalesce_float {n w : Nat} (c : Cfg) (v : Vector (BitVec n) w) (hw : 1 < w) :
    Packed.coalesce feq c v =
      if c.debug = true ∧ ((∃ i : Fin w, fnan v[i] = true) ∨ ∃ (i j : Fin w), fkey v[i] ≠ fkey v[j])
      then panic else ok v[0] := by
  rw [C53_coalesce_eq _ c v (by omega)]
  have key : (∃ i : Fin (w - 1), feq v[i.val] v[i.val + 1] = false) ↔
      ((∃ i : Fin w, fnan v[i] = true) ∨ ∃ (i j : Fin w), fkey v[i] ≠ fkey v[j]) := by
    constructor
    · rintro ⟨⟨i, hi⟩, he⟩
      replace hi : i + 1 < w := by omega
      cases h1 : fnan v[i] with
      | true => exact .inl ⟨⟨i, by omega⟩, h1⟩
      | false =>
        cases h2 : fnan v[i + 1] with
        | true => exact .inl ⟨⟨i + 1, hi⟩, h2⟩
        | false =>
          exact .inr ⟨⟨i, by omega⟩, ⟨i + 1, hi⟩, by simpa [feq, h1, h2] using he⟩
    · intro h
      rcases Classical.em (∃ i : Fin (w - 1), feq v[i.val] v[i.val + 1] = false) with h2 | h2
      · exact h2
      · have hall : ∀ i (hi : i + 1 < w), fnan v[i] = false ∧ fnan v[i + 1] = false ∧
            fkey v[i] = fkey v[i + 1] := by
          intro i hi
          have : feq v[i] v[i + 1] = true := by
            cases he : feq v[i] v[i + 1] with
            | true => rfl
            | false => exact absurd ⟨⟨i, by omega⟩, he⟩ h2
          simpa [feq, and_assoc] using this
        have h0 : ∀ m (hm : m < w), fkey v[m] = fkey v[0] := by
          intro m
          induction m with
          | zero => intro _; rfl
          | succ m ih => intro hm; rw [← ih (by omega)]; exact (hall m hm).2.2.symm
        rcases h with ⟨i, hi⟩ | ⟨i, j, hij⟩
        · obtain ⟨i, hlt⟩ := i
          simp only [Fin.getElem_fin] at hi
          cases i with
          | zero => rw [(hall 0 hw).1] at hi; cases hi
          | succ i => rw [(hall i hlt).2.1] at hi; cases hi
        · exact absurd (by simp only [Fin.getElem_fin]; rw [h0 i i.isLt, h0 j j.isLt]) hij
  simp only [key]

/-- Lanes which differ in their bits, but no panic. -/
example : Packed.coalesce feq debug64 #v[0x00000000#32, 0x80000000] = ok 0 ∧
    Packed.coalesce feq debug64 #v[0x7FC00000#32, 0x7FC00000] = panic ∧
    Packed.coalesce feq release64 #v[0x7FC00000#32, 0x7FC00000] = ok 0x7FC00000 := by decide +kernel

/-- **C53**: `scalar_reduce` is the monadic left fold over the lanes. -/
theorem C53_scalar_reduce {α τ : Type} {w : Nat} (v : Vector α w) (acc : τ) (f : τ → α → Res τ) :
    Packed.scalarReduce v acc f = v.toList.foldlM f acc := by
  have key : ∀ n i acc, i + n = w →
      Packed.scalarReduceLoop v f n i acc = (v.toList.drop i).foldlM f acc := by
    intro n
    induction n with
    | zero =>
      intro i acc h
      rw [List.drop_of_length_le (by simp; omega)]; rfl
    | succ n ih =>
      intro i acc h
      rw [List.drop_eq_getElem_cons (by simp; omega), List.foldlM_cons]
      simp only [Packed.scalarReduceLoop, Packed.extract]
      rw [dif_pos (by omega)]
      simp only [ok_bind, Vector.getElem_toList]
      congr 1; funext a
      exact ih (i + 1) a (by omega)
  simpa [Packed.scalarReduce] using key w 0 acc (by omega)

/-- **C53**: `product` is the checked product of the lanes. -/
theorem C53_product {α : Type} {w : Nat} (one : α) (mul : α → α → Res α) (v : Vector α w) :
    Packed.product one mul v = v.toList.foldlM mul one :=
  C53_scalar_reduce v one mul

/-- **C53**: extract and replace panic exactly for lanes outside the vector and
obey the get/set laws. -/
theorem C53_extract_replace {α : Type} {w : Nat} (v : Vector α w) (i : Nat) (x : α) :
    (Packed.extract v i = panic ↔ w ≤ i) ∧ (Packed.replace v i x = panic ↔ w ≤ i) ∧
    (∀ (h : i < w), Packed.extract v i = ok v[i]) ∧
    (i < w → ∃ v', Packed.replace v i x = ok v' ∧ Packed.extract v' i = ok x ∧
      ∀ j, j ≠ i → Packed.extract v' j = Packed.extract v j) := by
  refine ⟨?_, ?_, ?_, ?_⟩
  · unfold Packed.extract; split <;> simp <;> omega
  · unfold Packed.replace; split <;> simp <;> omega
  · intro h; simp [Packed.extract, h]
  · intro h
    refine ⟨v.set i x, by simp [Packed.replace, h], by simp [Packed.extract, h], ?_⟩
    intro j hj
    simp only [Packed.extract]
    split
    · rw [Vector.getElem_set_ne _ _ (by omega)]
    · rfl

example : Packed.coalesce (· == ·) debug64 #v[3, 3, 4] = panic ∧ Packed.coalesce (· == ·) release64 #v[3, 3, 4] = ok 3 ∧
    Packed.product 1 (fun a b => ok (a * b)) #v[2, 3, 4] = ok 24 := by decide +kernel

end Faster
