import Verif.Intrin.ImplTables
import Verif.Intrin.Tables
import Verif.Intrin.CastTables
import Verif.Intrin.RoundTables
import Verif.Intrin.PatternTables
import Verif.Props.Select
/-
Exactly one version of every method of a vector trait is compiled (C124), and which methods
the vector types have on every target (C125).
-/
namespace Faster

/-- Whether a version is compiled for a set of target features. -/
def Version.active (F : String → Bool) (v : Version) : Bool :=
  v.cond.all fun g => F g.1 == g.2

/-! ### C124: one version of every method -/

/-- One version without conditions, or two with opposite ones. -/
def ImplRow.complementary (r : ImplRow) : Bool :=
  match r.versions with
  | [v] => v.cond.isEmpty
  | [v, v'] => match v.cond, v'.cond with
    | [g], [g'] => g.1 == g'.1 && g.2 != g'.2
    | _, _ => false
  | _ => false

theorem complementary_one (F : String → Bool) (r : ImplRow) (h : r.complementary = true) :
    ∃ v, r.versions.filter (·.active F) = [v] := by
  unfold ImplRow.complementary at h
  split at h
  · next v e =>
    refine ⟨v, ?_⟩
    rw [List.isEmpty_iff] at h
    simp [e, Version.active, h]
  · next v v' e =>
    split at h
    · next g g' h1 h2 =>
      simp only [Bool.and_eq_true, beq_iff_eq, bne_iff_ne] at h
      obtain ⟨n, b⟩ := g
      obtain ⟨n', b'⟩ := g'
      simp only at h
      obtain ⟨rfl, hb⟩ := h
      simp only [e, List.filter_cons, Version.active, h1, h2, List.all_cons, List.all_nil,
        Bool.and_true, beq_iff_eq, List.filter_nil]
      cases hF : F n <;> cases b <;> cases b' <;> simp at hb ⊢
    · cases h
  · cases h

/-- **C124**: for every set of target features, exactly one version of every method of a vector
type is compiled. -/
theorem C124_one (F : String → Bool) (r : ImplRow) (hr : r ∈ implRows ++ implRowsUnknown) :
    ∃ v, r.versions.filter (·.active F) = [v] := by
  have h1 : implRows.all (·.complementary) = true := by decide +kernel
  have h2 : implRowsUnknown.all (·.complementary) = true := by decide +kernel
  rw [List.all_eq_true] at h1 h2
  rcases List.mem_append.1 hr with h | h
  · exact complementary_one F r (h1 r h)
  · exact complementary_one F r (h2 r h)

theorem pairwise_of_filter {α β : Type} [DecidableEq β] (k : α → β) (R : α → α → Prop) :
    ∀ l : List α, (∀ b, (l.filter fun x => k x = b).Pairwise R) →
      l.Pairwise fun x y => k x = k y → R x y
  | [], _ => .nil
  | x :: l, h => by
    rw [List.pairwise_cons]
    constructor
    · intro y hy e
      have := h (k x)
      rw [List.filter_cons_of_pos (by simp), List.pairwise_cons] at this
      exact this.1 y (by simp [hy, e])
    · refine pairwise_of_filter k R l fun b => ?_
      have := h b
      by_cases hb : k x = b
      · rw [List.filter_cons_of_pos (by simp [hb]), List.pairwise_cons] at this
        exact this.2
      · rwa [List.filter_cons_of_neg (by simp [hb])] at this

/-! Sets of methods as bits of numbers, for which the kernel has fast operations. -/

/-- Sizes and numbers of lanes which are powers of two. -/
def VType.small (v : VType) : Bool :=
  v.size == 2 ^ v.size.log2 && v.size.log2 < 4 && (v.lanes == 2 ^ v.lanes.log2 && v.lanes.log2 < 8)

/-- The number of a vector type. -/
def VType.code (v : VType) : Nat := v.kind.ctorIdx + 4 * v.size.log2 + 16 * v.lanes.log2

theorem kind_ctorIdx_lt (k : Kind) : k.ctorIdx < 4 := by cases k <;> decide

theorem kind_ctorIdx_inj {k k' : Kind} (h : k.ctorIdx = k'.ctorIdx) : k = k' := by
  cases k <;> cases k' <;> first | rfl | cases h

theorem meth_ctorIdx_inj {m m' : Meth} (h : m.ctorIdx = m'.ctorIdx) : m = m' := by
  have hm : ∀ m : Meth, Meth.ofNat m.ctorIdx = m := by intro m; cases m <;> rfl
  rw [← hm m, ← hm m', h]

theorem VType.code_lt {v : VType} (h : v.small = true) : v.code < 128 := by
  simp only [VType.small, Bool.and_eq_true, beq_iff_eq, decide_eq_true_eq] at h
  have := kind_ctorIdx_lt v.kind
  unfold VType.code
  omega

theorem VType.code_inj {v v' : VType} (h : v.small = true) (h' : v'.small = true)
    (e : v.code = v'.code) : v = v' := by
  simp only [VType.small, Bool.and_eq_true, beq_iff_eq, decide_eq_true_eq] at h h'
  have k1 := kind_ctorIdx_lt v.kind
  have k2 := kind_ctorIdx_lt v'.kind
  unfold VType.code at e
  have e1 : v.size.log2 = v'.size.log2 := by omega
  have e2 : v.lanes.log2 = v'.lanes.log2 := by omega
  have e3 : v.kind = v'.kind := kind_ctorIdx_inj (by omega)
  obtain ⟨a, b, c⟩ := v
  obtain ⟨a', b', c'⟩ := v'
  simp only at *
  obtain ⟨⟨hb, _⟩, hc, _⟩ := h
  obtain ⟨⟨hb', _⟩, hc', _⟩ := h'
  rw [e3, hb, hc, hb', hc', e1, e2]

/-- The number whose bits are the elements of a list. -/
def bitsOf : List Nat → Nat
  | [] => 0
  | n :: l => (1 <<< n) ||| bitsOf l

theorem testBit_bitsOf (k : Nat) : ∀ l : List Nat, (bitsOf l).testBit k = true ↔ k ∈ l
  | [] => by simp [bitsOf]
  | n :: l => by
    rw [bitsOf, Nat.testBit_or, Bool.or_eq_true, testBit_bitsOf k l, List.mem_cons,
      Nat.one_shiftLeft, Nat.testBit_two_pow]
    simp only [decide_eq_true_eq]
    exact or_congr_left eq_comm

/-- The elements of a list are distinct and not bits of a number. -/
def freshBits : List Nat → Nat → Bool
  | [], _ => true
  | n :: l, b => !b.testBit n && freshBits l (b ||| 1 <<< n)

theorem freshBits_spec : ∀ (l : List Nat) (b : Nat), freshBits l b = true →
    l.Nodup ∧ ∀ n ∈ l, b.testBit n = false
  | [], _, _ => by simp
  | n :: l, b, h => by
    simp only [freshBits, Bool.and_eq_true, Bool.not_eq_true'] at h
    obtain ⟨h1, h2⟩ := freshBits_spec l _ h.2
    constructor
    · refine List.nodup_cons.2 ⟨fun hn => ?_, h1⟩
      have := h2 n hn
      simp [Nat.one_shiftLeft] at this
    · intro k hk
      rcases List.mem_cons.1 hk with rfl | hk
      · exact h.1
      · have := h2 k hk
        rw [Nat.testBit_or] at this
        exact (Bool.or_eq_false_iff.1 this).1

/-- The number of a method of a type, without the parameter of the trait. -/
def methCode (m : Meth) (v : VType) : Nat := 128 * m.ctorIdx + v.code

theorem methCode_inj {m m' : Meth} {v v' : VType} (h : v.small = true) (h' : v'.small = true)
    (e : methCode m v = methCode m' v') : m = m' ∧ v = v' := by
  have h1 := VType.code_lt h
  have h2 := VType.code_lt h'
  unfold methCode at e
  exact ⟨meth_ctorIdx_inj (by omega), VType.code_inj h h' (by omega)⟩

/-- The methods of traits without parameters. -/
def plainCodes (rows : List ImplRow) : List Nat :=
  (rows.filter fun r => r.arg.isNone).map fun r => methCode r.meth r.vec

theorem distinct_of_check {rows : List ImplRow} (h : freshBits (plainCodes rows) 0 = true)
    (h' : ((rows.filter fun r => r.arg.isSome).map fun r => (r.meth, r.vec, r.arg)).Nodup) :
    (rows.map fun r => (r.meth, r.vec, r.arg)).Nodup := by
  have h0 := (freshBits_spec _ _ h).1
  unfold plainCodes at h0
  rw [List.Nodup, List.pairwise_map] at h0 h' ⊢
  have := pairwise_of_filter (fun r : ImplRow => r.arg.isSome)
    (fun x y => (x.meth, x.vec, x.arg) ≠ (y.meth, y.vec, y.arg)) rows fun b => by
      cases b with
      | true => simpa using h'
      | false =>
        have e : (fun r : ImplRow => decide (r.arg.isSome = false)) = fun r => r.arg.isNone := by
          funext r; cases r.arg <;> rfl
        rw [e]
        refine h0.imp fun h e => h ?_
        simp only [Prod.mk.injEq] at e
        rw [e.1, e.2.1]
  refine this.imp fun h e => h ?_ e
  simp only [Prod.mk.injEq] at e
  rw [e.2.2]

/-- **C124**: no method of a vector type is implemented twice. -/
theorem C124_distinct :
    (implRows.map fun r => (r.meth, r.vec, r.arg)).Nodup ∧
    (implRowsUnknown.map fun r => (r.meth, r.vec, r.arg)).Nodup :=
  ⟨distinct_of_check (by decide +kernel) (by decide +kernel),
    distinct_of_check (by decide +kernel) (by decide +kernel)⟩

theorem mem_of_testBit {rows : List ImplRow} (hs : (rows.all fun r => r.vec.small) = true)
    {m : Meth} {v : VType} (hv : v.small = true)
    (h : (bitsOf (plainCodes rows)).testBit (methCode m v) = true) :
    ∃ r ∈ rows, r.meth = m ∧ r.vec = v ∧ r.arg = none := by
  rw [testBit_bitsOf, plainCodes, List.mem_map] at h
  obtain ⟨r, hr, e⟩ := h
  rw [List.mem_filter] at hr
  obtain ⟨e1, e2⟩ := methCode_inj (List.all_eq_true.1 hs r hr.1) hv e
  exact ⟨r, hr.1, e1, e2, Option.isNone_iff_eq_none.1 hr.2⟩

/-- Whether a row has the methods it should have beside it. -/
def ImplRow.complete (bits : Nat) (r : ImplRow) : Bool :=
  (if r.arg.isNone then r.meth.trait.required.all fun m => bits.testBit (methCode m r.vec)
    else r.meth.trait.required.all fun m => m = r.meth) &&
  r.meth.trait.super.all fun u => u.required.all fun m => bits.testBit (methCode m r.vec)

theorem complete_of_check {rows : List ImplRow} (hs : (rows.all fun r => r.vec.small) = true)
    (h : (rows.all fun r => r.complete (bitsOf (plainCodes rows))) = true)
    (r : ImplRow) (hr : r ∈ rows) :
    (∀ m ∈ r.meth.trait.required, ∃ r' ∈ rows, r'.meth = m ∧ r'.vec = r.vec ∧ r'.arg = r.arg) ∧
    ∀ u ∈ r.meth.trait.super, ∀ m ∈ u.required, ∃ r' ∈ rows, r'.meth = m ∧ r'.vec = r.vec ∧
      r'.arg = none := by
  have hv := List.all_eq_true.1 hs r hr
  have := List.all_eq_true.1 h r hr
  unfold ImplRow.complete at this
  simp only [Bool.and_eq_true, List.all_eq_true] at this
  obtain ⟨h1, h2⟩ := this
  constructor
  · intro m hm
    split at h1
    · next ha =>
      rw [Option.isNone_iff_eq_none.1 ha]
      exact mem_of_testBit hs hv (List.all_eq_true.1 h1 m hm)
    · have := of_decide_eq_true (List.all_eq_true.1 h1 m hm)
      exact ⟨r, hr, this.symm, rfl, rfl⟩
  · intro u hu m hm
    exact mem_of_testBit hs hv (h2 u hu m hm)

/-- **C124**: a type with one method of a trait has all of them, and those of its supertraits. -/
theorem C124_complete :
    (∀ r ∈ implRows,
      (∀ m ∈ r.meth.trait.required, ∃ r' ∈ implRows, r'.meth = m ∧ r'.vec = r.vec ∧ r'.arg = r.arg) ∧
      ∀ u ∈ r.meth.trait.super, ∀ m ∈ u.required, ∃ r' ∈ implRows,
        r'.meth = m ∧ r'.vec = r.vec ∧ r'.arg = none) ∧
    (∀ r ∈ implRowsUnknown,
      (∀ m ∈ r.meth.trait.required, ∃ r' ∈ implRowsUnknown,
        r'.meth = m ∧ r'.vec = r.vec ∧ r'.arg = r.arg) ∧
      ∀ u ∈ r.meth.trait.super, ∀ m ∈ u.required, ∃ r' ∈ implRowsUnknown,
        r'.meth = m ∧ r'.vec = r.vec ∧ r'.arg = none) :=
  ⟨complete_of_check (by decide +kernel) (by decide +kernel),
    complete_of_check (by decide +kernel) (by decide +kernel)⟩

/-- `f32x4::sum` has a version for SSE3 and one for other machines. -/
example : ∃ r ∈ implRows, r.meth = .sum ∧ r.vec = ⟨.f, 4, 4⟩ ∧
    r.versions.map (·.cond) = [[("sse3", true)], [("sse3", false)]] := by
  have h : (implRows.any fun r => r.meth = .sum && r.vec = ⟨.f, 4, 4⟩ &&
      (r.versions.map (·.cond) = [[("sse3", true)], [("sse3", false)]])) = true := by decide +kernel
  simpa [List.any_eq_true, and_assoc] using h

/-! ### The tables of the other properties -/

/-- The Rust name of a vector type. -/
def VType.name (v : VType) : String :=
  (match v.kind with | .u => "u" | .i => "i" | .f => "f") ++ toString (8 * v.size) ++ "x" ++ toString v.lanes

/-- The types with a method. -/
def typeNames (rows : List ImplRow) (m : Meth) : List String :=
  (rows.filter fun r => r.meth = m).map (·.vec.name)

/-- The types with a method, and the parameters of the trait. -/
def typePairs (rows : List ImplRow) (m : Meth) : List (String × String) :=
  (rows.filter fun r => r.meth = m).filterMap fun r => r.arg.map fun a => (r.vec.name, a.name)

/-- Two lists have the same elements. -/
def SameElems {α : Type} (a b : List α) : Prop := (∀ x ∈ a, x ∈ b) ∧ ∀ x ∈ b, x ∈ a

instance {α : Type} [DecidableEq α] (a b : List α) : Decidable (SameElems a b) :=
  inferInstanceAs (Decidable (_ ∧ _))

/-- **C124**, x86: the tables which the theorems about the methods quantify over have a row for
every type which has the method. -/
theorem C124_tables :
    SameElems (typeNames implRows .abs) (absRows.map (·.vec)) ∧
    SameElems (typePairs implRows .upcast) (upcastRows.map fun r => (r.vec, r.to)) ∧
    SameElems (typePairs implRows .saturating_downcast) (downcastRows.map fun r => (r.vec, r.to)) ∧
    SameElems (typeNames implRows .saturating_add) (satAddRows.map (·.vec)) ∧
    SameElems (typeNames implRows .saturating_sub) (satSubRows.map (·.vec)) ∧
    SameElems (typeNames implRows .min) ((cmpRows.filter fun r => r.fn = .min).map (·.vec)) ∧
    SameElems (typeNames implRows .max) ((cmpRows.filter fun r => r.fn = .max).map (·.vec)) ∧
    SameElems (typeNames implRows .eq_mask) (eqRows.map (·.vec)) ∧
    SameElems (typeNames implRows .hadd) (haddRows.map (·.vec)) ∧
    SameElems (typeNames implRows .hsub) (hsubRows.map (·.vec)) ∧
    SameElems (typeNames implRows .saturating_hadd) (satHaddRows.map (·.vec)) ∧
    SameElems (typeNames implRows .saturating_hsub) (satHsubRows.map (·.vec)) ∧
    SameElems (typeNames implRows .round) ((roundRows.filter fun r => r.fn = .round).map (·.vec)) ∧
    SameElems (typeNames implRows .ceil) ((roundRows.filter fun r => r.fn = .ceil).map (·.vec)) ∧
    SameElems (typeNames implRows .floor) ((roundRows.filter fun r => r.fn = .floor).map (·.vec)) ∧
    SameElems (typeNames implRows .trunc) ((roundRows.filter fun r => r.fn = .trunc).map (·.vec)) ∧
    SameElems (typeNames implRows .sqrt) (sqrtRows.map (·.vec)) ∧
    SameElems (typeNames implRows .recip) (recipRows.map (·.vec)) ∧
    SameElems (typeNames implRows .rsqrt) (rsqrtRows.map (·.vec)) ∧
    SameElems (typeNames implRows .swap_bytes) ((swapRows ++ swapRows512).map (·.vec)) ∧
    SameElems (typeNames implRows .merge_halves) (mergeRows.map (·.vec)) ∧
    SameElems (typeNames implRows .destride_two) (destrideRows.map (·.vec)) ∧
    SameElems (typeNames implRows .halfs) (patternRows.map (·.vec)) ∧
    SameElems (typeNames implRows .load) (packedRows.map (·.vec)) := by
  refine ⟨?_, ?_, ?_, ?_, ?_, ?_, ?_, ?_, ?_, ?_, ?_, ?_, ?_, ?_, ?_, ?_, ?_, ?_, ?_, ?_, ?_, ?_, ?_, ?_⟩ <;>
    decide +kernel

/-- **C124**, other targets: the tables which the theorems about the methods quantify over have a row for
every type which has the method. -/
theorem C124_tables_unknown :
    SameElems (typeNames implRowsUnknown .abs) (absRowsUnknown.map (·.vec)) ∧
    SameElems (typePairs implRowsUnknown .upcast) (upcastRowsUnknown.map fun r => (r.vec, r.to)) ∧
    SameElems (typePairs implRowsUnknown .saturating_downcast) (downcastRowsUnknown.map fun r => (r.vec, r.to)) ∧
    SameElems (typeNames implRowsUnknown .saturating_add) (satAddRowsUnknown.map (·.vec)) ∧
    SameElems (typeNames implRowsUnknown .saturating_sub) (satSubRowsUnknown.map (·.vec)) ∧
    SameElems (typeNames implRowsUnknown .min) ((cmpRowsUnknown.filter fun r => r.fn = .min).map (·.vec)) ∧
    SameElems (typeNames implRowsUnknown .max) ((cmpRowsUnknown.filter fun r => r.fn = .max).map (·.vec)) ∧
    SameElems (typeNames implRowsUnknown .eq_mask) (eqRowsUnknown.map (·.vec)) ∧
    SameElems (typeNames implRowsUnknown .hadd) (haddRowsUnknown.map (·.vec)) ∧
    SameElems (typeNames implRowsUnknown .hsub) (hsubRowsUnknown.map (·.vec)) ∧
    SameElems (typeNames implRowsUnknown .saturating_hadd) (satHaddRowsUnknown.map (·.vec)) ∧
    SameElems (typeNames implRowsUnknown .saturating_hsub) (satHsubRowsUnknown.map (·.vec)) ∧
    SameElems (typeNames implRowsUnknown .round) ((roundRowsUnknown.filter fun r => r.fn = .round).map (·.vec)) ∧
    SameElems (typeNames implRowsUnknown .ceil) ((roundRowsUnknown.filter fun r => r.fn = .ceil).map (·.vec)) ∧
    SameElems (typeNames implRowsUnknown .floor) ((roundRowsUnknown.filter fun r => r.fn = .floor).map (·.vec)) ∧
    SameElems (typeNames implRowsUnknown .trunc) ((roundRowsUnknown.filter fun r => r.fn = .trunc).map (·.vec)) ∧
    SameElems (typeNames implRowsUnknown .sqrt) (sqrtRowsUnknown.map (·.vec)) ∧
    SameElems (typeNames implRowsUnknown .recip) (recipRowsUnknown.map (·.vec)) ∧
    SameElems (typeNames implRowsUnknown .rsqrt) (rsqrtRowsUnknown.map (·.vec)) ∧
    SameElems (typeNames implRowsUnknown .swap_bytes) (swapRowsUnknown.map (·.vec)) ∧
    SameElems (typeNames implRowsUnknown .merge_halves) (mergeRowsUnknown.map (·.vec)) ∧
    SameElems (typeNames implRowsUnknown .destride_two) (destrideRowsUnknown.map (·.vec)) ∧
    SameElems (typeNames implRowsUnknown .halfs) (patternRowsUnknown.map (·.vec)) ∧
    SameElems (typeNames implRowsUnknown .load) (packedRowsUnknown.map (·.vec)) := by
  refine ⟨?_, ?_, ?_, ?_, ?_, ?_, ?_, ?_, ?_, ?_, ?_, ?_, ?_, ?_, ?_, ?_, ?_, ?_, ?_, ?_, ?_, ?_, ?_, ?_⟩ <;>
    decide +kernel

/-! ### C125: the methods of the native vector types -/

/-- Vectors of `B` bytes with lanes of kind `k` and `s` bytes have the method `m`; `arg` is the
kind and size of the lanes of the parameter of its trait, a vector of as many bytes. -/
def Offers (rows : List ImplRow) (B : Nat) (m : Meth) (k : Kind) (s : Nat) (arg : Option (Kind × Nat)) :
    Prop :=
  ∃ r ∈ rows, r.meth = m ∧ r.vec.kind = k ∧ r.vec.size = s ∧ r.vec.lanes * r.vec.size = B ∧
    r.arg.map (fun a => (a.kind, a.size, a.lanes * a.size)) = arg.map fun a => (a.1, a.2, B)

/-- The methods of vectors of `B` bytes. -/
def sigs (rows : List ImplRow) (B : Nat) : List (Meth × Kind × Nat × Option (Kind × Nat)) :=
  rows.filterMap fun r =>
    if r.vec.lanes * r.vec.size = B then
      match r.arg with
      | none => some (r.meth, r.vec.kind, r.vec.size, none)
      | some a => if a.lanes * a.size = B then some (r.meth, r.vec.kind, r.vec.size, some (a.kind, a.size))
        else none
    else none

theorem offers_iff {rows : List ImplRow} {B : Nat} {m : Meth} {k : Kind} {s : Nat}
    {arg : Option (Kind × Nat)} : Offers rows B m k s arg ↔ (m, k, s, arg) ∈ sigs rows B := by
  unfold Offers sigs
  rw [List.mem_filterMap]
  refine exists_congr fun r => and_congr_right fun _ => ?_
  by_cases hB : r.vec.lanes * r.vec.size = B
  · rw [if_pos hB]
    cases ha : r.arg with
    | none => cases arg <;> simp [hB]
    | some a =>
      by_cases hA : a.lanes * a.size = B
      · cases arg with
        | none => simp [hA]
        | some b => obtain ⟨b1, b2⟩ := b; simp [hA, hB]
      · cases arg <;> simp [hA]
  · simp [hB]

/-- Sizes which are powers of two. -/
def smallSize (s : Nat) : Bool := s == 2 ^ s.log2 && s.log2 < 4

/-- A method with the kinds and sizes of lanes. -/
def smallSig (x : Meth × Kind × Nat × Option (Kind × Nat)) : Bool :=
  smallSize x.2.2.1 && (match x.2.2.2 with | none => true | some a => smallSize a.2)

/-- The number of the parameter of a trait. -/
def argCode : Option (Kind × Nat) → Nat
  | none => 0
  | some a => 1 + a.1.ctorIdx + 4 * a.2.log2

/-- The number of a method with the kinds and sizes of lanes. -/
def sigCode (x : Meth × Kind × Nat × Option (Kind × Nat)) : Nat :=
  512 * x.1.ctorIdx + 32 * (x.2.1.ctorIdx + 4 * x.2.2.1.log2) + argCode x.2.2.2

theorem kindSize_inj {k k' : Kind} {s s' : Nat} (h : smallSize s = true) (h' : smallSize s' = true)
    (e : k.ctorIdx + 4 * s.log2 = k'.ctorIdx + 4 * s'.log2) : k = k' ∧ s = s' := by
  simp only [smallSize, Bool.and_eq_true, beq_iff_eq, decide_eq_true_eq] at h h'
  have k1 := kind_ctorIdx_lt k
  have k2 := kind_ctorIdx_lt k'
  refine ⟨kind_ctorIdx_inj (by omega), ?_⟩
  rw [h.1, h'.1, show s.log2 = s'.log2 by omega]

theorem kindSize_lt {k : Kind} {s : Nat} (h : smallSize s = true) : k.ctorIdx + 4 * s.log2 < 16 := by
  simp only [smallSize, Bool.and_eq_true, beq_iff_eq, decide_eq_true_eq] at h
  have k1 := kind_ctorIdx_lt k
  omega

theorem sigCode_inj {x y : Meth × Kind × Nat × Option (Kind × Nat)} (h : smallSig x = true)
    (h' : smallSig y = true) (e : sigCode x = sigCode y) : x = y := by
  obtain ⟨m, k, s, a⟩ := x
  obtain ⟨m', k', s', a'⟩ := y
  simp only [smallSig, Bool.and_eq_true] at h h'
  simp only [sigCode] at e
  have l1 := kindSize_lt (k := k) h.1
  have l2 := kindSize_lt (k := k') h'.1
  have la : ∀ b : Option (Kind × Nat), (match b with | none => true | some a => smallSize a.2) = true →
      argCode b < 32 := by
    intro b hb
    cases b with
    | none => simp [argCode]
    | some b => have := kindSize_lt (k := b.1) hb; simp only [argCode]; omega
  have l3 := la _ h.2
  have l4 := la _ h'.2
  have e1 : m = m' := meth_ctorIdx_inj (by omega)
  obtain ⟨e2, e3⟩ := kindSize_inj (k := k) (k' := k') h.1 h'.1 (by omega)
  have e4 : argCode a = argCode a' := by omega
  subst e1 e2 e3
  congr 3
  cases a with
  | none => cases a' with
    | none => rfl
    | some a' => simp only [argCode] at e4; omega
  | some a => cases a' with
    | none => simp only [argCode] at e4; omega
    | some a' =>
      obtain ⟨f1, f2⟩ := kindSize_inj (k := a.1) (k' := a'.1) h.2 h'.2 (by simp only [argCode] at e4; omega)
      exact congrArg some (Prod.ext f1 f2)

theorem testBit_sigs {l : List (Meth × Kind × Nat × Option (Kind × Nat))}
    (hl : l.all smallSig = true) {x : Meth × Kind × Nat × Option (Kind × Nat)}
    (hx : smallSig x = true) : x ∈ l ↔ (bitsOf (l.map sigCode)).testBit (sigCode x) = true := by
  rw [testBit_bitsOf, List.mem_map]
  constructor
  · exact fun h => ⟨x, h, rfl⟩
  · rintro ⟨y, hy, e⟩
    rwa [← sigCode_inj (List.all_eq_true.1 hl y hy) hx e]

theorem sigs_check {l l' : List (Meth × Kind × Nat × Option (Kind × Nat))} (hl : l.all smallSig = true)
    (hl' : l'.all smallSig = true) (f : Meth × Kind × Nat × Option (Kind × Nat) → Bool)
    (h : (l.all fun x => x.1.trait = .helper ||
      (bitsOf (l'.map sigCode)).testBit (sigCode x) == f x) = true) :
    ∀ x ∈ l, x.1.trait ≠ .helper → (x ∈ l' ↔ f x = true) := by
  intro x hx ht
  rw [testBit_sigs hl' (List.all_eq_true.1 hl x hx)]
  have := List.all_eq_true.1 h x hx
  simp only [Bool.or_eq_true, decide_eq_true_eq, ht, false_or, beq_iff_eq] at this
  rw [this]

theorem sigs_small : (sigs implRows 16).all smallSig = true ∧ (sigs implRows 32).all smallSig = true ∧
    (sigs implRowsUnknown 16).all smallSig = true := by decide +kernel

/-- Methods which only vectors under src/arch/x86 have. -/
def X86Only (m : Meth) : Prop := m = .count_ones

/-- Methods which only vectors under src/arch/unknown have. -/
def UnknownOnly (m : Meth) (k : Kind) (s : Nat) : Prop :=
  (m = .rsqrt ∧ k = .f ∧ s = 8) ∨ (m = .saturating_add ∧ k ≠ .f ∧ (s = 4 ∨ s = 8))

instance (m : Meth) : Decidable (X86Only m) := inferInstanceAs (Decidable (_ = _))
instance (m : Meth) (k : Kind) (s : Nat) : Decidable (UnknownOnly m k s) :=
  inferInstanceAs (Decidable (_ ∨ _))

/-- **C125**, x86: without AVX-512, the native vectors have the same methods for every set of
target features. -/
theorem C125_x86 (F : String → Bool) (hF : F "avx512" = false) (m : Meth) (hm : m.trait ≠ .helper)
    (k : Kind) (s : Nat) (arg : Option (Kind × Nat)) :
    Offers implRows (vectorBytes F) m k s arg ↔ Offers implRows 16 m k s arg := by
  have h1 := sigs_check sigs_small.1 sigs_small.2.1 (fun _ => true) (by decide +kernel)
  have h2 := sigs_check sigs_small.2.1 sigs_small.1 (fun _ => true) (by decide +kernel)
  unfold vectorBytes
  rw [hF]
  simp only [Bool.false_eq_true, if_false]
  split
  · rw [offers_iff, offers_iff]
    exact ⟨fun h => (h2 _ h hm).2 rfl, fun h => (h1 _ h hm).2 rfl⟩
  · exact Iff.rfl

/-- **C125**, exactly: a method of the native vectors of x86 is missing on other targets if and only
if it is `count_ones`; a method of other targets is missing on x86 if and only if it is `rsqrt` of
`f64s` or `saturating_add` of 32-bit or 64-bit lanes. -/
theorem C125_partial (F : String → Bool) (hF : F "avx512" = false) (m : Meth) (hm : m.trait ≠ .helper)
    (k : Kind) (s : Nat) (arg : Option (Kind × Nat)) :
    (Offers implRows (vectorBytes F) m k s arg →
      (Offers implRowsUnknown 16 m k s arg ↔ ¬ X86Only m)) ∧
    (Offers implRowsUnknown 16 m k s arg →
      (Offers implRows (vectorBytes F) m k s arg ↔ ¬ UnknownOnly m k s)) := by
  rw [C125_x86 F hF m hm, offers_iff, offers_iff]
  have h1 := sigs_check sigs_small.1 sigs_small.2.2 (fun x => ! decide (X86Only x.1)) (by decide +kernel)
  have h2 := sigs_check sigs_small.2.2 sigs_small.1
    (fun x => ! decide (UnknownOnly x.1 x.2.1 x.2.2.1)) (by decide +kernel)
  exact ⟨fun h => by simpa using h1 _ h hm, fun h => by simpa using h2 _ h hm⟩

/-- **C125 is false**: programs with `u8s::count_ones` compile for x86 only, programs with
`u32s::saturating_add` for other targets only. -/
theorem C125_false :
    (Offers implRows 16 .count_ones .u 1 none ∧ ¬ Offers implRowsUnknown 16 .count_ones .u 1 none) ∧
    (¬ Offers implRows 16 .saturating_add .u 4 none ∧
      Offers implRowsUnknown 16 .saturating_add .u 4 none) ∧
    (¬ Offers implRows 16 .rsqrt .f 8 none ∧ Offers implRowsUnknown 16 .rsqrt .f 8 none) := by
  simp only [offers_iff]
  refine ⟨⟨?_, ?_⟩, ⟨?_, ?_⟩, ?_, ?_⟩ <;> decide +kernel

/-- Methods every target has. -/
example : Offers implRows 32 .upcast .u 1 (some (.u, 2)) ∧ Offers implRowsUnknown 16 .upcast .u 1 (some (.u, 2)) ∧
    Offers implRows 16 .sum_upcast .f 8 none ∧ Offers implRowsUnknown 16 .sum_upcast .f 8 none := by
  simp only [offers_iff]
  decide +kernel

end Faster
