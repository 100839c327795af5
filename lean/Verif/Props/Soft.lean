import Verif.Soft
import Verif.Props.Vec
/-
Software vectors (C54, C59, C60, C61).
-/
namespace Faster
open Res

variable {α β : Type} {w w' : Nat}

/-! ### C54: loads and stores -/

/-- C54: exact outcome of the safe `load`: it reads outside the slice whenever
the slice has at least `w` elements, `offset` is inside and fewer than `w`
elements follow. -/
theorem C54_load (slice : List α) (offset : Nat) :
    ((slice.length < w ∨ slice.length < offset) → (Soft.load slice offset : Res (Vector α w)) = panic) ∧
    (w ≤ slice.length → offset ≤ slice.length → slice.length < offset + w →
      (Soft.load slice offset : Res (Vector α w)) = ub) ∧
    (offset + w ≤ slice.length → ∃ v : Vector α w, Soft.load slice offset = ok v ∧
      ∀ j (hj : j < w), slice[offset + j]? = some v[j]) := by
  refine ⟨fun h => ?_, fun h1 h2 h3 => ?_, fun h => ?_⟩
  · rcases Nat.lt_or_ge slice.length w with h1 | h1
    · have : ¬ w ≤ slice.length := by omega
      simp [Soft.load, assert, this]
    · have : ¬ offset ≤ slice.length := by omega
      simp [Soft.load, Soft.loadUnchecked, assert, sliceFrom, h1, this]
  · have : ¬ w ≤ slice.length - offset := by omega
    simp [Soft.load, Soft.loadUnchecked, Soft.copyFrom, assert, sliceFrom, h1, h2, this]
  · have h1 : w ≤ slice.length := by omega
    have h2 : offset ≤ slice.length := by omega
    have h3 : w ≤ slice.length - offset := by omega
    refine ⟨⟨((slice.drop offset).take w).toArray, by simp [h3]⟩, ?_, ?_⟩
    · simp [Soft.load, Soft.loadUnchecked, Soft.copyFrom, assert, sliceFrom, h1, h2, h3]
    · intro j hj
      rw [List.getElem?_eq_getElem (by omega)]
      simp

/-- C54: exact outcome of the safe `store`. -/
theorem C54_store (v : Vector α w) (slice : List α) (offset : Nat) :
    ((slice.length < w ∨ slice.length < offset) → Soft.store v slice offset = panic) ∧
    (w ≤ slice.length → offset ≤ slice.length → slice.length < offset + w →
      Soft.store v slice offset = ub) ∧
    (offset + w ≤ slice.length → ∃ s, Soft.store v slice offset = ok s ∧ s.length = slice.length ∧
      (∀ j (hj : j < w), s[offset + j]? = some v[j]) ∧
      ∀ j, j < offset ∨ offset + w ≤ j → s[j]? = slice[j]?) := by
  refine ⟨fun h => ?_, fun h1 h2 h3 => ?_, fun h => ?_⟩
  · rcases Nat.lt_or_ge slice.length w with h1 | h1
    · have : ¬ w ≤ slice.length := by omega
      simp [Soft.store, assert, this]
    · have : ¬ offset ≤ slice.length := by omega
      simp [Soft.store, Soft.storeUnchecked, assert, sliceFrom, h1, this]
  · have : ¬ w ≤ slice.length - offset := by omega
    simp [Soft.store, Soft.storeUnchecked, assert, sliceFrom, h1, h2, this]
  · have h1 : w ≤ slice.length := by omega
    have h2 : offset ≤ slice.length := by omega
    have h3 : w ≤ slice.length - offset := by omega
    obtain ⟨s, hs, hrest⟩ := (C17_store v slice offset).1 h
    refine ⟨s, ?_, hrest⟩
    rw [store_ok h] at hs
    simp [Soft.store, Soft.storeUnchecked, assert, sliceFrom, h1, h2, h3, ← hs]

/-- C54 is false: loading four lanes at offset 1 from four elements. -/
theorem C54_false :
    (Soft.load [1, 2, 3, 4] 1 : Res (Vector Nat 4)) = ub ∧
    Soft.store #v[5, 6, 7, 8] [1, 2, 3, 4] 4 = ub := by
  decide +kernel

/-- C54: the versions without an offset are safe, and `load` agrees with the
trait's bounds-checked `load` (C17) except where it reads out of bounds. -/
theorem C54_partial (slice : List α) (offset : Nat) (v : Vector α w) :
    (Soft.loadUnaligned slice : Res (Vector α w)) = Packed.load slice 0 ∧
    Soft.storeUnaligned v slice = Packed.store v slice 0 ∧
    (¬ (w ≤ slice.length ∧ offset ≤ slice.length ∧ slice.length < offset + w) →
      (Soft.load slice offset : Res (Vector α w)) = Packed.load slice offset ∧
      Soft.store v slice offset = Packed.store v slice offset) := by
  refine ⟨?_, ?_, fun h => ?_⟩
  · by_cases hw : w ≤ slice.length <;>
      simp [Soft.loadUnaligned, Soft.loadUnchecked, Soft.copyFrom, Packed.load, Packed.fromSlice,
        Packed.fromSliceUnchecked, assert, sliceFrom, hw]
  · by_cases hw : w ≤ slice.length <;>
      simp [Soft.storeUnaligned, Soft.storeUnchecked, Packed.store, assert, sliceFrom, hw]
  · by_cases hw : w ≤ slice.length
    · by_cases ho : offset ≤ slice.length
      · have h3 : w ≤ slice.length - offset := by omega
        simp [Soft.load, Soft.loadUnchecked, Soft.copyFrom, Packed.load, Packed.fromSlice,
          Packed.fromSliceUnchecked, Soft.store, Soft.storeUnchecked, Packed.store, assert, sliceFrom,
          hw, ho, h3]
      · simp [Soft.load, Soft.loadUnchecked, Packed.load, Soft.store, Soft.storeUnchecked,
          Packed.store, assert, sliceFrom, hw, ho]
    · have h3 : ¬ w ≤ slice.length - offset := by omega
      by_cases ho : offset ≤ slice.length <;>
        simp [Soft.load, Packed.load, Packed.fromSlice, Soft.store, Packed.store, assert, sliceFrom,
          hw, ho, h3]

example : (Soft.load [1, 2, 3, 4, 5] 1 : Res (Vector Nat 4)) = ok #v[2, 3, 4, 5] := by decide +kernel

/-! ### C59: operators -/

/-- Lanes `k, k+1, …` overwritten with `zs`. -/
def over (r : Vector α w) (k : Nat) : List α → Vector α w
  | [] => r
  | z :: zs => over (r.setIfInBounds k z) (k + 1) zs

theorem over_getElem (zs : List α) : ∀ (r : Vector α w) (k i : Nat) (hi : i < w),
    some (over r k zs)[i] = if k ≤ i ∧ i < k + zs.length then zs[i - k]? else some r[i] := by
  induction zs with
  | nil =>
    intro r k i hi
    rw [if_neg (by rw [List.length_nil]; omega)]
    rfl
  | cons z zs ih =>
    intro r k i hi
    rw [over, ih]
    simp only [List.length_cons]
    by_cases h1 : k + 1 ≤ i ∧ i < k + 1 + zs.length
    · rw [if_pos h1, if_pos (by omega), show i - k = i - (k + 1) + 1 by omega, List.getElem?_cons_succ]
    · rw [if_neg h1]
      by_cases h2 : i = k
      · subst h2
        rw [if_pos (by omega)]
        simp
      · rw [if_neg (by omega), Vector.getElem_setIfInBounds_ne _ (by omega)]

/-- Overwriting all lanes. -/
theorem over_all (r : Vector α w) {zs : List α} (h : zs.length = w) :
    over r 0 zs = ⟨zs.toArray, by simp [h]⟩ := by
  apply Vector.ext
  intro i hi
  have := over_getElem zs r 0 i hi
  rw [if_pos (by omega)] at this
  apply Option.some.inj
  rw [this]
  simp [h, hi]

theorem replace_setIfInBounds (v : Vector α w) {i : Nat} (hi : i < w) (x : α) :
    Soft.replace v i x = ok (v.setIfInBounds i x) := by
  simp [Soft.replace, hi, Vector.setIfInBounds, Vector.set, Array.setIfInBounds]

theorem opLoop_eq (op : α → α → Res α) (l : List (α × α)) : ∀ (k : Nat) (r : Vector α w),
    k + l.length ≤ w →
    Soft.opLoop op ((List.range' k l.length).zip l) r =
      (do let zs ← l.mapM fun p => op p.1 p.2
          ok (over r k zs)) := by
  induction l with
  | nil => intro k r _; rfl
  | cons p l ih =>
    intro k r h
    simp only [List.length_cons] at h ⊢
    rw [List.range'_succ, List.zip_cons_cons, List.mapM_cons]
    obtain ⟨x, y⟩ := p
    simp only [Soft.opLoop, bind_assoc]
    cases op x y with
    | ok z =>
      simp only [Res.ok_bind]
      rw [replace_setIfInBounds _ (by omega)]
      simp only [Res.ok_bind]
      rw [ih (k + 1) _ (by omega)]
      simp [over]
    | _ => rfl

theorem assignLoop_eq (op : α → α → Res α) (l : List α) : ∀ (k : Nat) (r : Vector α w),
    k + l.length ≤ w →
    Soft.assignLoop op ((List.range' k l.length).zip l) r =
      (do let zs ← ((r.toList.drop k).zip l).mapM fun p => op p.1 p.2
          ok (over r k zs)) := by
  induction l with
  | nil => intro k r _; simp [Soft.assignLoop, over]
  | cons y l ih =>
    intro k r h
    simp only [List.length_cons] at h ⊢
    have hk : k < r.toList.length := by simp; omega
    rw [List.range'_succ, List.zip_cons_cons, List.drop_eq_getElem_cons hk, List.zip_cons_cons,
      List.mapM_cons]
    have hx : Soft.extract r k = ok r.toList[k] := by
      simp [Soft.extract, show k < w by omega]
    simp only [Soft.assignLoop, hx, Res.ok_bind, bind_assoc]
    cases op r.toList[k] y with
    | ok z =>
      simp only [Res.ok_bind]
      rw [replace_setIfInBounds _ (by omega)]
      simp only [Res.ok_bind]
      rw [ih (k + 1) _ (by omega)]
      have : (r.setIfInBounds k z).toList.drop (k + 1) = r.toList.drop (k + 1) := by
        rw [Vector.toList_setIfInBounds, List.drop_set_of_lt (by omega)]
      simp only [over, this, Res.pure_eq, Res.ok_bind]
    | _ => rfl

/-- `op` applied to all lanes in order, stopping at the first that fails. -/
theorem binop_eq (op : α → α → Res α) (zero : α) (a b : Vector α w) :
    Soft.binop op zero a b =
      (do let zs ← (a.toList.zip b.toList).mapM fun p => op p.1 p.2
          ok (over (Vector.replicate w zero) 0 zs)) := by
  unfold Soft.binop
  have hl : (a.toList.zip b.toList).length = w := by simp
  have := opLoop_eq op (a.toList.zip b.toList) 0 (Vector.replicate w zero) (by omega)
  rw [hl, ← List.range_eq_range'] at this
  exact this

theorem mapM_length {γ δ : Type} (f : γ → Res δ) (l : List γ) {zs : List δ} (h : l.mapM f = ok zs) :
    zs.length = l.length := by
  induction l generalizing zs with
  | nil => simp at h; subst h; rfl
  | cons x l ih =>
    rw [List.mapM_cons] at h
    cases hx : f x with
    | ok z =>
      rw [hx] at h
      simp only [Res.ok_bind] at h
      cases hl : l.mapM f with
      | ok ys =>
        rw [hl] at h
        simp at h
        subst h
        simp [ih hl]
      | _ => rw [hl] at h; cases h
    | _ => rw [hx] at h; cases h

theorem mapM_ok {γ δ : Type} (f : γ → Res δ) (l : List γ) (zs : List δ) (hl : zs.length = l.length)
    (h : ∀ i (h1 : i < l.length) (h2 : i < zs.length), f l[i] = ok zs[i]) : l.mapM f = ok zs := by
  induction l generalizing zs with
  | nil => cases zs with
    | nil => rfl
    | cons => simp at hl
  | cons x l ih => cases zs with
    | nil => simp at hl
    | cons z zs =>
      have h0 := h 0 (by simp) (by simp)
      simp only [List.getElem_cons_zero] at h0
      rw [List.mapM_cons, h0]
      simp only [Res.ok_bind]
      rw [ih zs (by simpa using hl) fun i h1 h2 => by
        exact h (i + 1) (by simp; omega) (by simp; omega)]
      rfl

theorem mapM_panic {γ δ : Type} (f : γ → Res δ) (l : List γ) (i : Nat) (hi : i < l.length)
    (hb : ∀ j (hj : j < i), ∃ z, f (l[j]'(by omega)) = ok z) (h : f l[i] = panic) :
    l.mapM f = panic := by
  induction l generalizing i with
  | nil => simp at hi
  | cons x l ih =>
    rw [List.mapM_cons]
    cases i with
    | zero =>
      simp only [List.getElem_cons_zero] at h
      rw [h]; rfl
    | succ i =>
      obtain ⟨z, hz⟩ := hb 0 (by omega)
      simp only [List.getElem_cons_zero] at hz
      rw [hz]
      simp only [Res.ok_bind]
      rw [ih i (by simpa using hi) (fun j hj => by simpa using hb (j + 1) (by omega)) (by simpa using h)]
      rfl

/-- C59: if the scalar operator succeeds in every lane, the vector operator
returns exactly these results. -/
theorem C59_lanes (op : α → α → Res α) (zero : α) (a b r : Vector α w)
    (h : ∀ i (hi : i < w), op a[i] b[i] = ok r[i]) : Soft.binop op zero a b = ok r := by
  rw [binop_eq, mapM_ok _ _ r.toList (by simp) (by
    intro i h1 h2
    simpa using h i (by simpa using h2))]
  simp only [Res.ok_bind]
  rw [over_all _ (by simp)]
  rfl

/-- C59: if the scalar operator panics in some lane (overflow in a debug build,
division by zero) and no earlier lane misbehaves, the vector operator panics. -/
theorem C59_panics (op : α → α → Res α) (zero : α) (a b : Vector α w) (i : Nat) (hi : i < w)
    (hb : ∀ j (hj : j < i), ∃ z, op a[j] b[j] = ok z) (h : op a[i] b[i] = panic) :
    Soft.binop op zero a b = panic := by
  rw [binop_eq, mapM_panic _ _ i (by simpa using hi) (by intro j hj; simpa using hb j hj)
    (by simpa using h)]
  rfl

/-- C59: `a op= b` leaves in `a` what `a op b` returns, and panics when it does. -/
theorem C59_assign (op : α → α → Res α) (zero : α) (a b : Vector α w) :
    Soft.assignop op a b = Soft.binop op zero a b := by
  rw [binop_eq]
  unfold Soft.assignop
  have hl : b.toList.length = w := by simp
  have := assignLoop_eq op b.toList 0 a (by omega)
  rw [hl, ← List.range_eq_range', List.drop_zero] at this
  rw [this]
  cases hz : (a.toList.zip b.toList).mapM fun p => op p.1 p.2 with
  | ok zs =>
    have := mapM_length _ _ hz
    simp only [Res.ok_bind]
    rw [over_all _ (by simpa using this), over_all _ (by simpa using this)]
  | _ => rfl

example : Soft.binop (fun x y => if x + y < 256 then ok (x + y) else panic) 0 #v[1, 2] #v[3, 255] =
    panic := by decide +kernel
example : Soft.assignop (fun x y => if x + y < 256 then ok (x + y) else panic) #v[1, 2] #v[3, 4] =
    ok #v[4, 6] := by decide +kernel

/-- The operators every vector of a kind supports: floats have no bit operations. -/
def kindOps : Kind → List Oper
  | .f => [.mul, .div, .add, .sub]
  | _ => [.mul, .div, .add, .sub, .shl, .shr, .rem, .and, .or, .xor]

theorem softOps_rows : ∀ row ∈ softOps ++ softAssignOps, row.ops = (kindOps row.kind).map fun t => (t, t) := by
  decide +kernel

/-- Every vector type has one row of operators and one of assignment operators,
with its own element type. -/
theorem softOps_types :
    (∀ r ∈ softRows, (softOps.filter fun o => o.vec = r.vec).map (·.el) = [r.el] ∧
      (softAssignOps.filter fun o => o.vec = r.vec).map (·.el) = [r.el]) ∧
    (softRows.map (·.vec)).Nodup ∧ softRows.length = 30 ∧ softOps.length = 30 ∧ softAssignOps.length = 30 := by
  decide +kernel

theorem lookup_diag (t : Oper) (l : List Oper) :
    (l.map fun t => (t, t)).lookup t = if t ∈ l then some t else none := by
  induction l with
  | nil => rfl
  | cons x l ih =>
    rw [List.map_cons, List.lookup_cons, ih]
    by_cases h : t = x
    · subst h; simp
    · have : (t == x) = false := by simpa using h
      simp [this, h]

/-- C59 for every operator of every software vector type: the trait `t` is
implemented exactly for the operators of its kind and applies the scalar
operator `t` (not another one) in every lane. -/
theorem C59_traits (scalar : Oper → α → α → Res α) (row : SoftOpRow) (h : row ∈ softOps) (t : Oper)
    (zero : α) (a b : Vector α w) :
    Soft.traitOp scalar row t zero a b =
      if t ∈ kindOps row.kind then some (Soft.binop (scalar t) zero a b) else none := by
  rw [Soft.traitOp, softOps_rows row (by simp [h]), lookup_diag]
  by_cases h : t ∈ kindOps row.kind <;> simp [h]

/-- C59 for the assignment operators: `a t= b` leaves in `a` what `a t b` returns. -/
theorem C59_traits_assign (scalar : Oper → α → α → Res α) (row row' : SoftOpRow) (h : row ∈ softAssignOps)
    (h' : row' ∈ softOps) (hk : row.kind = row'.kind) (t : Oper) (zero : α) (a b : Vector α w) :
    Soft.traitAssign scalar row t a b = Soft.traitOp scalar row' t zero a b := by
  rw [C59_traits scalar row' h', Soft.traitAssign, softOps_rows row (by simp [h]), lookup_diag, hk]
  by_cases h : t ∈ kindOps row'.kind <;> simp [h, C59_assign _ zero]

/-! ### C60: equality -/

/-- C60: two software vectors are equal exactly if all lanes are equal under the
scalar `==` (for floats this is the IEEE comparison). -/
theorem C60 (beq : α → α → Bool) (a b : Vector α w) :
    Soft.eq beq a b = true ↔ ∀ i (hi : i < w), beq a[i] b[i] = true := by
  have key : ∀ (l : List (α × α)) (acc : Bool),
      l.foldl (fun acc p => acc && beq p.1 p.2) acc = true ↔
        acc = true ∧ ∀ p ∈ l, beq p.1 p.2 = true := by
    intro l
    induction l with
    | nil => simp
    | cons p l ih =>
      intro acc
      rw [List.foldl_cons, ih]
      simp [and_assoc]
  unfold Soft.eq
  rw [key]
  simp only [true_and]
  constructor
  · intro h i hi
    have : (a[i], b[i]) ∈ a.toList.zip b.toList := by
      refine List.mem_iff_getElem.mpr ⟨i, by simpa using hi, by simp⟩
    exact h _ this
  · intro h p hp
    obtain ⟨i, hi, he⟩ := List.mem_iff_getElem.mp hp
    have hw : i < w := by simpa using hi
    rw [← he]
    simpa using h i hw

/-- C60: with a symmetric scalar comparison, vector equality is symmetric. -/
theorem C60_symm (beq : α → α → Bool) (hs : ∀ x y, beq x y = beq y x) (a b : Vector α w) :
    Soft.eq beq a b = Soft.eq beq b a := by
  rw [Bool.eq_iff_iff, C60, C60]
  constructor <;> intro h i hi
  · rw [hs]; exact h i hi
  · rw [hs]; exact h i hi

example : Soft.eq (· == ·) #v[1, 2, 3] #v[1, 2, 4] = false := by decide +kernel

/-! ### C61: casts -/

theorem castLoop_eq (conv : α → β) (l : List α) : ∀ (k : Nat) (r : Vector β w), k + l.length ≤ w →
    Soft.castLoop conv ((List.range' k l.length).zip l) r = ok (over r k (l.map conv)) := by
  induction l with
  | nil => intro k r _; rfl
  | cons x l ih =>
    intro k r h
    simp only [List.length_cons] at h ⊢
    rw [List.range'_succ, List.zip_cons_cons]
    simp only [Soft.castLoop]
    rw [replace_setIfInBounds _ (by omega)]
    simp only [Res.ok_bind]
    rw [ih (k + 1) _ (by omega)]
    rfl

/-- C61: a cast between software vectors with the same number of lanes converts
every lane and never panics. -/
theorem C61 (conv : α → β) (zero : β) (a : Vector α w) :
    ∃ r : Vector β w, Soft.cast conv zero a = ok r ∧ ∀ i (hi : i < w), r[i] = conv a[i] := by
  unfold Soft.cast
  have hl : a.toList.length = w := by simp
  have := castLoop_eq conv a.toList 0 (Vector.replicate w zero) (by omega)
  rw [hl, ← List.range_eq_range'] at this
  rw [this, over_all _ (by simp)]
  refine ⟨_, rfl, fun i hi => ?_⟩
  simp

/-- C61: every cast between software vectors keeps the number of lanes, converts to
the element type of the result and is named after it. -/
theorem C61_rows : ∀ r ∈ softCasts, r.lanes = r.toLanes ∧ r.name = "as_" ++ r.to ∧
    r.to = r.el ++ "x" ++ toString r.toLanes := by
  decide +kernel

example : softCasts.length = 48 := by decide +kernel

example : Soft.cast (fun x : Nat => (x : Int) - 1) 0 #v[1, 2] = ok #v[0, 1] := by decide +kernel

end Faster
