import Verif.Props.Fusion
import Verif.Zip
/-
C55: consumers of composed maps, over any implementation of the iterator traits, without
restrictions on its behaviour.
-/
namespace Faster
open Res SIMDSized SIMDIterable SIMDIterator

/-! ### Iterators which behave alike -/

section
variable {I J α : Type} {w : Nat} [SIMDSized I] [SIMDIterator I α w] [SIMDSized J] [SIMDIterator J α w]

/-- `end` without the number of unfilled lanes. -/
def endVector (c : Cfg) (it : I) : Res (Option (Vector α w) × I) :=
  end_ c it >>= fun r => ok (r.1.map Prod.fst, r.2)

/-- `φ m` behaves like `m`, except perhaps for the number of unfilled lanes. -/
structure Alike (c : Cfg) (φ : J → I) : Prop where
  next : ∀ m, next c (φ m) = next c m >>= fun r => ok (r.1, φ r.2)
  end_ : ∀ m, endVector c (φ m) = endVector c m >>= fun r => ok (r.1, φ r.2)
  len : ∀ m, SIMDIterable.len c (φ m) = SIMDIterable.len c m

/-- The number of unfilled lanes is the same, too. -/
def AlikeEnd (c : Cfg) (φ : J → I) : Prop :=
  ∀ m, SIMDIterator.end_ c (φ m) = SIMDIterator.end_ c m >>= fun r => ok (r.1, φ r.2)

variable {c : Cfg} {φ : J → I}

theorem Alike.reduceLoop {A σ : Type} (h : Alike c φ) (f : σ → A → Vector α w → Res (A × σ))
    (fuel : Nat) (m : J) (acc : A) (st : σ) :
    reduceLoop c f fuel (φ m) acc st = reduceLoop c f fuel m acc st >>= fun r => ok (φ r.1, r.2) := by
  induction fuel generalizing m acc st with
  | zero => rfl
  | succ fuel ih =>
    simp only [Faster.reduceLoop, h.next, bind_assoc]
    congr 1
    funext r
    obtain ⟨r, m'⟩ := r
    cases r with
    | none => rfl
    | some v =>
      simp only [ok_bind, bind_assoc]
      congr 1
      funext q
      exact ih m' q.1 q.2

theorem simdReduce_endVector {A σ : Type} (f : σ → A → Vector α w → Res (A × σ)) (fuel : Nat) (m : J)
    (start : A) (st : σ) : simdReduce c fuel m start st f =
    Faster.reduceLoop c f fuel m start st >>= fun r => endVector c r.1 >>= fun e => match e.1 with
      | some v => f r.2.2 r.2.1 v >>= fun q => ok (e.2, q.1, q.2)
      | none => ok (e.2, r.2.1, r.2.2) := by
  simp only [simdReduce, endVector, bind_assoc, ok_bind]
  congr 1; funext r
  congr 1; funext e
  obtain ⟨e, m'⟩ := e
  cases e <;> rfl

theorem Alike.simdReduce {A σ : Type} (h : Alike c φ) (f : σ → A → Vector α w → Res (A × σ))
    (fuel : Nat) (m : J) (start : A) (st : σ) :
    simdReduce c fuel (φ m) start st f =
      simdReduce c fuel m start st f >>= fun r => ok (φ r.1, r.2) := by
  rw [simdReduce_endVector, simdReduce_endVector, h.reduceLoop]
  simp only [bind_assoc, ok_bind, h.end_]
  congr 1; funext r
  congr 1; funext e
  obtain ⟨e, m'⟩ := e
  cases e with
  | none => rfl
  | some v =>
    simp only [bind_assoc, ok_bind]

theorem Alike.doEachLoop {σ : Type} (h : Alike c φ) (f : FnMut σ (Vector α w) Unit)
    (fuel : Nat) (m : J) (st : σ) :
    doEachLoop c f fuel (φ m) st = doEachLoop c f fuel m st >>= fun r => ok (φ r.1, r.2) := by
  induction fuel generalizing m st with
  | zero => rfl
  | succ fuel ih =>
    simp only [Faster.doEachLoop, h.next, bind_assoc]
    congr 1
    funext r
    obtain ⟨r, m'⟩ := r
    cases r with
    | none => rfl
    | some v =>
      simp only [ok_bind, bind_assoc]
      congr 1
      funext q
      exact ih m' q.2

theorem simdDoEach_endVector {σ : Type} (f : FnMut σ (Vector α w) Unit) (fuel : Nat) (m : J)
    (st : σ) : simdDoEach c fuel m st f =
    Faster.doEachLoop c f fuel m st >>= fun r => endVector c r.1 >>= fun e => match e.1 with
      | some v => f r.2 v >>= fun q => ok (e.2, q.2)
      | none => ok (e.2, r.2) := by
  simp only [simdDoEach, endVector, bind_assoc, ok_bind]
  congr 1; funext r
  congr 1; funext e
  obtain ⟨e, m'⟩ := e
  cases e <;> rfl

theorem Alike.simdDoEach {σ : Type} (h : Alike c φ) (f : FnMut σ (Vector α w) Unit)
    (fuel : Nat) (m : J) (st : σ) :
    simdDoEach c fuel (φ m) st f = simdDoEach c fuel m st f >>= fun r => ok (φ r.1, r.2) := by
  rw [simdDoEach_endVector, simdDoEach_endVector, h.doEachLoop]
  simp only [bind_assoc, ok_bind, h.end_]
  congr 1; funext r
  congr 1; funext e
  obtain ⟨e, m'⟩ := e
  cases e with
  | none => rfl
  | some v =>
    simp only [bind_assoc, ok_bind]

theorem Alike.fillAllLoop {κ : Type} (h : Alike c φ) (inj : α → κ) (fuel : Nat) (m : J)
    (buf : List κ) (offset : Nat) :
    fillAllLoop c inj fuel (φ m) buf offset =
      fillAllLoop c inj fuel m buf offset >>= fun r => ok (φ r.1, r.2) := by
  induction fuel generalizing m buf offset with
  | zero => rfl
  | succ fuel ih =>
    simp only [Faster.fillAllLoop, h.next, bind_assoc]
    congr 1
    funext r
    obtain ⟨r, m'⟩ := r
    cases r with
    | none => rfl
    | some v =>
      simp only [ok_bind, bind_assoc, ih]

theorem scalarFillAllCells_endVector {κ : Type} (inj : α → κ) (fuel : Nat) (m : J) (buf : List κ) :
    scalarFillAllCells c inj fuel m buf =
    Faster.fillAllLoop c inj fuel m buf 0 >>= fun r => endVector c r.1 >>= fun e => match e.1 with
      | some v => Packed.storeUnchecked c (v.map inj) r.2.1 r.2.2 >>= fun b => ok (e.2, b)
      | none => ok (e.2, r.2.1) := by
  simp only [scalarFillAllCells, endVector, bind_assoc, ok_bind]
  congr 1; funext r
  congr 1; funext e
  obtain ⟨e, m'⟩ := e
  cases e <;> rfl

theorem Alike.scalarFillAllCells {κ : Type} (h : Alike c φ) (inj : α → κ) (fuel : Nat) (m : J)
    (buf : List κ) :
    scalarFillAllCells c inj fuel (φ m) buf =
      scalarFillAllCells c inj fuel m buf >>= fun r => ok (φ r.1, r.2) := by
  rw [scalarFillAllCells_endVector, scalarFillAllCells_endVector, h.fillAllLoop]
  simp only [bind_assoc, ok_bind, h.end_]
  congr 1; funext r
  congr 1; funext e
  obtain ⟨e, m'⟩ := e
  cases e with
  | none => rfl
  | some v =>
    simp only [bind_assoc, ok_bind]

theorem Alike.scalarCollectAll (h : Alike c φ) (fuel : Nat) (m : J) :
    scalarCollectAll c fuel (φ m) = scalarCollectAll c fuel m >>= fun r => ok (φ r.1, r.2) := by
  simp only [Faster.scalarCollectAll, h.len, h.scalarFillAllCells, bind_assoc, ok_bind]

theorem Alike.fillLoop {κ : Type} (h : Alike c φ) (inj : α → κ) (fuel : Nat) (m : J)
    (buf : List κ) (offset : Nat) (last : Vector α w) :
    fillLoop c inj fuel (φ m) buf offset last =
      fillLoop c inj fuel m buf offset last >>= fun r => ok (φ r.1, r.2) := by
  induction fuel generalizing m buf offset last with
  | zero => rfl
  | succ fuel ih =>
    simp only [Faster.fillLoop, h.next, bind_assoc]
    congr 1
    funext r
    obtain ⟨r, m'⟩ := r
    cases r with
    | none => rfl
    | some v =>
      simp only [ok_bind, bind_assoc, ih]

theorem Alike.scalarFill [Packable α] (h : Alike c φ) (he : AlikeEnd c φ) (fuel : Nat) (m : J)
    (buf : List α) :
    scalarFill c fuel (φ m) buf = scalarFill c fuel m buf >>= fun r => ok (φ r.1, r.2) := by
  simp only [Faster.scalarFill, h.fillLoop, bind_assoc, ok_bind]
  congr 1; funext r
  rw [he]
  simp only [bind_assoc, ok_bind]
  congr 1; funext e
  obtain ⟨e, m'⟩ := e
  cases e with
  | none => rfl
  | some q => simp only [bind_assoc, ok_bind]

theorem Alike.scalarCollect [Packable α] (h : Alike c φ) (he : AlikeEnd c φ) (fuel : Nat) (m : J) :
    scalarCollect c fuel (φ m) = scalarCollect c fuel m >>= fun r => ok (φ r.1, r.2) := by
  simp only [Faster.scalarCollect, h.fillLoop, h.len, bind_assoc, ok_bind]
  congr 1; funext a1
  congr 1; funext a2
  congr 1; funext a3
  congr 1; funext a4
  congr 1; funext a5
  congr 1; funext a6
  congr 1; funext a7
  congr 1; funext r
  rw [he]
  simp only [bind_assoc, ok_bind]
  congr 1; funext e
  obtain ⟨e, m'⟩ := e
  cases e with
  | none => simp only [bind_assoc, ok_bind, h.len]
  | some q => simp only [bind_assoc, ok_bind]

end

/-! ### Maps of maps -/

section
variable {I σ τ α β γ : Type} {w w' w'' : Nat} [SIMDSized I] [SIMDIterator I α w]
  [Packable α] [Packable β] [Packable γ]

/-- Lanes of one size, back to bytes: no overflow. -/
theorem umul_div_self (c : Cfg) {n s x : Nat} (h : umul c n s = ok x) (p : Nat) (hc : 0 < c.usize) :
    umul c (x / p) p = ok (x / p * p) := by
  have hx : x < c.usize := by
    unfold umul at h
    split at h
    · cases h; assumption
    · split at h
      · cases h
      · cases h; exact Nat.mod_lt _ hc
  exact umul_ok (Nat.lt_of_le_of_lt (Nat.div_mul_le_self ..) hx)

omit [SIMDSized I] [SIMDIterator I α w] in
/-- If the intermediate lane size divides both the original one and the size of the address
space, the number of unfilled bytes is a multiple of it, with and without overflow. -/
theorem umul_dvd (c : Cfg) {n x : Nat} (h : umul c n (Packable.size α) = ok x)
    (hd : Packable.size β ∣ Packable.size α) (hu : Packable.size β ∣ c.usize) : Packable.size β ∣ x := by
  have h1 : Packable.size β ∣ n * Packable.size α := Nat.dvd_mul_left_of_dvd hd n
  unfold umul at h
  split at h
  · cases h; exact h1
  · split at h
    · cases h
    · cases h
      exact (Nat.dvd_mod_iff hu).mpr h1

/-- The state of a map the closure of which is fixed. -/
structure MapOf (I : Type) {σ α β : Type} {w w' : Nat} (f : FnMut σ (Vector α w) (Vector β w')) where
  iter : I
  st : σ

/-- The map. -/
def MapOf.map {f : FnMut σ (Vector α w) (Vector β w')} (m : MapOf I f) : SIMDMap I σ α w β w' :=
  ⟨m.iter, m.st, f⟩

/-- The state of a map. -/
def MapOf.ofMap {f : FnMut σ (Vector α w) (Vector β w')} (m : SIMDMap I σ α w β w') : MapOf I f :=
  ⟨m.iter, m.st⟩

variable {f : FnMut σ (Vector α w) (Vector β w')} {g : FnMut τ (Vector β w') (Vector γ w'')}

instance instSizedMapOf : SIMDSized (MapOf I f) where
  scalarLen c m := scalarLen c m.map

instance instIterableMapOf : SIMDIterable (MapOf I f) β w' where
  next c m := SIMDIterable.next c m.map >>= fun r => ok (r.1, MapOf.ofMap r.2)
  len c m := SIMDIterable.len c m.map
  scalarPos c m := SIMDIterable.scalarPos c m.map
  advance c m n := SIMDIterable.advance c m.map n >>= fun r => ok (MapOf.ofMap r)
  dflt m := SIMDIterable.dflt m.map

instance instIteratorMapOf : SIMDIterator (MapOf I f) β w' where
  end_ c m := SIMDIterator.end_ c m.map >>= fun r => ok (r.1, MapOf.ofMap r.2)

theorem AlikeEnd.endVector {I J α : Type} {w : Nat} [SIMDSized I] [SIMDIterator I α w] [SIMDSized J]
    [SIMDIterator J α w] {c : Cfg} {φ : J → I} (h : AlikeEnd c φ) (m : J) :
    endVector c (φ m) = endVector c m >>= fun r => ok (r.1, φ r.2) := by
  simp only [Faster.endVector, h m, bind_assoc, ok_bind]

theorem mapOf_alikeEnd (c : Cfg) : AlikeEnd c (MapOf.map : MapOf I f → _) := by
  intro m
  simp only [SIMDIterator.end_, SIMDMap.end_, bind_assoc, MapOf.map]
  congr 1; funext r
  obtain ⟨r, it⟩ := r
  cases r with
  | none => rfl
  | some q => simp only [bind_assoc, ok_bind, MapOf.ofMap]

theorem mapOf_alike (c : Cfg) : Alike c (MapOf.map : MapOf I f → _) where
  next m := by
    simp only [SIMDIterable.next, SIMDMap.next, bind_assoc, MapOf.map]
    congr 1; funext r
    obtain ⟨r, it⟩ := r
    cases r with
    | none => rfl
    | some q => simp only [bind_assoc, ok_bind, MapOf.ofMap]
  end_ m := (mapOf_alikeEnd c).endVector m
  len _ := rfl

/-- The nested maps. -/
def MapOf.nested (m : MapOf I (composeFn f g)) : SIMDMap (SIMDMap I σ α w β w') τ β w' γ w'' :=
  simdMap (simdMap m.iter m.st.1 f) m.st.2 g

theorem nested_next (c : Cfg) (m : MapOf I (composeFn f g)) :
    next c m.nested = next c m >>= fun r => ok (r.1, r.2.nested) := by
  rw [MapOf.nested, C55_next]
  simp only [SIMDIterable.next, bind_assoc, ok_bind]
  rfl

theorem nested_alikeEnd (c : Cfg) (hc : 0 < c.usize)
    (hβ : 0 < Packable.size β) (hγ : 0 < Packable.size γ)
    (hd : Packable.size β ∣ Packable.size α) (hu : Packable.size β ∣ c.usize) :
    AlikeEnd c (MapOf.nested : MapOf I (composeFn f g) → _) := by
  intro m
  simp only [SIMDIterator.end_, SIMDMap.end_, bind_assoc, MapOf.nested, MapOf.map, simdMap]
  congr 1; funext r
  obtain ⟨r, it⟩ := r
  cases r with
  | none => rfl
  | some q =>
    obtain ⟨v, n⟩ := q
    simp only [bind_assoc, ok_bind, composeFn]
    cases hm : umul c n (Packable.size α) with
    | ok x =>
      simp only [ok_bind]
      rw [udiv_ok hβ, udiv_ok hγ]
      simp only [ok_bind]
      congr 1; funext a
      rw [umul_div_self c hm _ hc]
      simp only [ok_bind]
      rw [udiv_ok hγ, Nat.div_mul_cancel (umul_dvd c hm hd hu)]
      rfl
    | _ => rfl

theorem nested_alike (c : Cfg) (hc : 0 < c.usize)
    (hβ : 0 < Packable.size β) (hγ : 0 < Packable.size γ) :
    Alike c (MapOf.nested : MapOf I (composeFn f g) → _) where
  next := nested_next c
  end_ m := by
    simp only [endVector, SIMDIterator.end_, SIMDMap.end_, bind_assoc, MapOf.nested, MapOf.map, simdMap]
    congr 1; funext r
    obtain ⟨r, it⟩ := r
    cases r with
    | none => rfl
    | some q =>
      obtain ⟨v, n⟩ := q
      simp only [bind_assoc, ok_bind, composeFn]
      cases hm : umul c n (Packable.size α) with
      | ok x =>
        simp only [ok_bind]
        rw [udiv_ok hβ, udiv_ok hγ]
        simp only [ok_bind]
        congr 1; funext a
        rw [umul_div_self c hm _ hc]
        simp only [ok_bind]
        rw [udiv_ok hγ]
        rfl
      | _ => rfl
  len _ := rfl

end

section
variable {I σ τ α β γ : Type} {w w' w'' : Nat} [SIMDSized I] [SIMDIterator I α w]
  [Packable α] [Packable β] [Packable γ]
variable (c : Cfg) (f : FnMut σ (Vector α w) (Vector β w')) (g : FnMut τ (Vector β w') (Vector γ w''))
  (it : I) (s : σ) (t : τ)

/-- **C55**, `simd_do_each`: nested maps over any iterator are like the fused map, for every closure
and all sizes of lanes. -/
theorem C55_do_each {ρ : Type} (hc : 0 < c.usize) (hβ : 0 < Packable.size β) (hγ : 0 < Packable.size γ)
    (fuel : Nat) (st : ρ) (k : FnMut ρ (Vector γ w'') Unit) :
    simdDoEach c fuel (simdMap (simdMap it s f) t g) st k =
      simdDoEach c fuel (simdMap it (s, t) (composeFn f g)) st k >>= fun r =>
        ok (unfuse f g r.1, r.2) := by
  have h1 := (nested_alike (f := f) (g := g) (I := I) c hc hβ hγ).simdDoEach k fuel ⟨it, (s, t)⟩ st
  have h2 := (mapOf_alike (f := composeFn f g) (I := I) c).simdDoEach k fuel ⟨it, (s, t)⟩ st
  refine h1.trans ?_
  rw [show simdMap it (s, t) (composeFn f g) = (⟨it, (s, t)⟩ : MapOf I (composeFn f g)).map from rfl, h2]
  simp only [bind_assoc, ok_bind]
  rfl

/-- **C55**, `simd_reduce`. -/
theorem C55_reduce {A ρ : Type} (hc : 0 < c.usize) (hβ : 0 < Packable.size β) (hγ : 0 < Packable.size γ)
    (fuel : Nat) (start : A) (st : ρ) (k : ρ → A → Vector γ w'' → Res (A × ρ)) :
    simdReduce c fuel (simdMap (simdMap it s f) t g) start st k =
      simdReduce c fuel (simdMap it (s, t) (composeFn f g)) start st k >>= fun r =>
        ok (unfuse f g r.1, r.2) := by
  have h1 := (nested_alike (f := f) (g := g) (I := I) c hc hβ hγ).simdReduce k fuel ⟨it, (s, t)⟩ start st
  have h2 := (mapOf_alike (f := composeFn f g) (I := I) c).simdReduce k fuel ⟨it, (s, t)⟩ start st
  refine h1.trans ?_
  rw [show simdMap it (s, t) (composeFn f g) = (⟨it, (s, t)⟩ : MapOf I (composeFn f g)).map from rfl, h2]
  simp only [bind_assoc, ok_bind]
  rfl

/-- **C55**, `scalar_fill_all`. -/
theorem C55_fill_all (hc : 0 < c.usize) (hβ : 0 < Packable.size β) (hγ : 0 < Packable.size γ)
    (fuel : Nat) (buf : List γ) :
    scalarFillAll c fuel (simdMap (simdMap it s f) t g) buf =
      scalarFillAll c fuel (simdMap it (s, t) (composeFn f g)) buf >>= fun r =>
        ok (unfuse f g r.1, r.2) := by
  have h1 := (nested_alike (f := f) (g := g) (I := I) c hc hβ hγ).scalarFillAllCells id fuel ⟨it, (s, t)⟩ buf
  have h2 := (mapOf_alike (f := composeFn f g) (I := I) c).scalarFillAllCells id fuel ⟨it, (s, t)⟩ buf
  refine h1.trans ?_
  rw [show simdMap it (s, t) (composeFn f g) = (⟨it, (s, t)⟩ : MapOf I (composeFn f g)).map from rfl,
    scalarFillAll, h2]
  simp only [bind_assoc, ok_bind]
  rfl

/-- **C55**, `scalar_collect_all`. -/
theorem C55_collect_all (hc : 0 < c.usize) (hβ : 0 < Packable.size β) (hγ : 0 < Packable.size γ)
    (fuel : Nat) :
    scalarCollectAll c fuel (simdMap (simdMap it s f) t g) =
      scalarCollectAll c fuel (simdMap it (s, t) (composeFn f g)) >>= fun r =>
        ok (unfuse f g r.1, r.2) := by
  have h1 := (nested_alike (f := f) (g := g) (I := I) c hc hβ hγ).scalarCollectAll fuel ⟨it, (s, t)⟩
  have h2 := (mapOf_alike (f := composeFn f g) (I := I) c).scalarCollectAll fuel ⟨it, (s, t)⟩
  refine h1.trans ?_
  rw [show simdMap it (s, t) (composeFn f g) = (⟨it, (s, t)⟩ : MapOf I (composeFn f g)).map from rfl, h2]
  simp only [bind_assoc, ok_bind]
  rfl

/-- **C55**, `scalar_fill`, if the intermediate lane size divides the original one. Missing: other
intermediate sizes, for which the number of unfilled lanes may differ (`C55_end_exact`). -/
theorem C55_fill_partial (hc : 0 < c.usize) (hβ : 0 < Packable.size β) (hγ : 0 < Packable.size γ)
    (hd : Packable.size β ∣ Packable.size α) (hu : Packable.size β ∣ c.usize)
    (fuel : Nat) (buf : List γ) :
    scalarFill c fuel (simdMap (simdMap it s f) t g) buf =
      scalarFill c fuel (simdMap it (s, t) (composeFn f g)) buf >>= fun r =>
        ok (unfuse f g r.1, r.2) := by
  have h1 := (nested_alike (f := f) (g := g) (I := I) c hc hβ hγ).scalarFill
    (nested_alikeEnd c hc hβ hγ hd hu) fuel ⟨it, (s, t)⟩ buf
  have h2 := (mapOf_alike (f := composeFn f g) (I := I) c).scalarFill (mapOf_alikeEnd c) fuel
    ⟨it, (s, t)⟩ buf
  refine h1.trans ?_
  rw [show simdMap it (s, t) (composeFn f g) = (⟨it, (s, t)⟩ : MapOf I (composeFn f g)).map from rfl, h2]
  simp only [bind_assoc, ok_bind]
  rfl

/-- **C55**, `scalar_collect`, if the intermediate lane size divides the original one. Missing: other
intermediate sizes, for which the number of unfilled lanes may differ (`C55_end_exact`, `C55_false`). -/
theorem C55_collect_partial (hc : 0 < c.usize) (hβ : 0 < Packable.size β) (hγ : 0 < Packable.size γ)
    (hd : Packable.size β ∣ Packable.size α) (hu : Packable.size β ∣ c.usize) (fuel : Nat) :
    scalarCollect c fuel (simdMap (simdMap it s f) t g) =
      scalarCollect c fuel (simdMap it (s, t) (composeFn f g)) >>= fun r =>
        ok (unfuse f g r.1, r.2) := by
  have h1 := (nested_alike (f := f) (g := g) (I := I) c hc hβ hγ).scalarCollect
    (nested_alikeEnd c hc hβ hγ hd hu) fuel ⟨it, (s, t)⟩
  have h2 := (mapOf_alike (f := composeFn f g) (I := I) c).scalarCollect (mapOf_alikeEnd c) fuel
    ⟨it, (s, t)⟩
  refine h1.trans ?_
  rw [show simdMap it (s, t) (composeFn f g) = (⟨it, (s, t)⟩ : MapOf I (composeFn f g)).map from rfl, h2]
  simp only [bind_assoc, ok_bind]
  rfl

end

/-! ### Maps of maps of zips -/

section
variable {Z σ τ γ α β : Type} {w w' : Nat} [SIMDZippedIterator Z γ] [Packable α] [Packable β]

/-- `|v| g(f(v))`, the argument being a tuple of vectors. -/
def zcomposeFn (f : FnMut σ γ (Vector α w)) (g : FnMut τ (Vector α w) (Vector β w')) :
    FnMut (σ × τ) γ (Vector β w') := fun (s, t) v => do
  let (u, s) ← f s v
  let (x, t) ← g t u
  ok (x, (s, t))

/-- The map of the zipped map corresponding to a state of the fused map. -/
def zunfuse (f : FnMut σ γ (Vector α w)) (g : FnMut τ (Vector α w) (Vector β w'))
    (m : SIMDZipMap Z (σ × τ) γ β w') : SIMDMap (SIMDZipMap Z σ γ α w) τ α w β w' :=
  ⟨⟨m.iter, m.st.1, f⟩, m.st.2, g⟩

/-- The state of a zipped map the closure of which is fixed. -/
structure ZMapOf (Z : Type) {σ γ α : Type} {w : Nat} (f : FnMut σ γ (Vector α w)) where
  iter : Z
  st : σ

/-- The map. -/
def ZMapOf.map {f : FnMut σ γ (Vector α w)} (m : ZMapOf Z f) : SIMDZipMap Z σ γ α w :=
  ⟨m.iter, m.st, f⟩

/-- The state of a map. -/
def ZMapOf.ofMap {f : FnMut σ γ (Vector α w)} (m : SIMDZipMap Z σ γ α w) : ZMapOf Z f :=
  ⟨m.iter, m.st⟩

variable {f : FnMut σ γ (Vector α w)} {g : FnMut τ (Vector α w) (Vector β w')}

instance instSizedZMapOf : SIMDSized (ZMapOf Z f) where
  scalarLen c m := scalarLen c m.map

instance instIterableZMapOf : SIMDIterable (ZMapOf Z f) α w where
  next c m := SIMDIterable.next c m.map >>= fun r => ok (r.1, ZMapOf.ofMap r.2)
  len c m := SIMDIterable.len c m.map
  scalarPos c m := SIMDIterable.scalarPos c m.map
  advance c m n := SIMDIterable.advance c m.map n >>= fun r => ok (ZMapOf.ofMap r)
  dflt m := SIMDIterable.dflt m.map

instance instIteratorZMapOf : SIMDIterator (ZMapOf Z f) α w where
  end_ c m := SIMDIterator.end_ c m.map >>= fun r => ok (r.1, ZMapOf.ofMap r.2)

theorem zmapOf_alikeEnd (c : Cfg) : AlikeEnd c (ZMapOf.map : ZMapOf Z f → _) := by
  intro m
  simp only [SIMDIterator.end_, SIMDZipMap.end_, bind_assoc, ZMapOf.map]
  congr 1; funext r
  obtain ⟨r, it⟩ := r
  cases r with
  | none => rfl
  | some q => simp only [bind_assoc, ok_bind, ZMapOf.ofMap]

theorem zmapOf_alike (c : Cfg) : Alike c (ZMapOf.map : ZMapOf Z f → _) where
  next m := by
    simp only [SIMDIterable.next, SIMDZipMap.next, bind_assoc, ZMapOf.map]
    congr 1; funext r
    obtain ⟨r, it⟩ := r
    cases r with
    | none => rfl
    | some q => simp only [bind_assoc, ok_bind, ZMapOf.ofMap]
  end_ m := (zmapOf_alikeEnd c).endVector m
  len _ := rfl

/-- The nested maps. -/
def ZMapOf.nested (m : ZMapOf Z (zcomposeFn f g)) : SIMDMap (SIMDZipMap Z σ γ α w) τ α w β w' :=
  simdMap (zsimdMap m.iter m.st.1 f) m.st.2 g

theorem znested_alikeEnd (c : Cfg) (hc : 0 < c.usize)
    (hα : 0 < Packable.size α) (hβ : 0 < Packable.size β)
    (hd : ∀ z : Z, Packable.size α ∣ SIMDZippedIterator.size z) (hu : Packable.size α ∣ c.usize) :
    AlikeEnd c (ZMapOf.nested : ZMapOf Z (zcomposeFn f g) → _) := by
  intro m
  simp only [SIMDIterator.end_, SIMDMap.end_, SIMDZipMap.end_, bind_assoc, ZMapOf.nested, ZMapOf.map,
    simdMap, zsimdMap]
  congr 1; funext r
  obtain ⟨r, it⟩ := r
  cases r with
  | none => rfl
  | some q =>
    obtain ⟨v, n⟩ := q
    simp only [bind_assoc, ok_bind, zcomposeFn]
    cases hm : umul c n (SIMDZippedIterator.size it) with
    | ok x =>
      have hdvd : Packable.size α ∣ x := by
        have h1 : Packable.size α ∣ n * SIMDZippedIterator.size it := Nat.dvd_mul_left_of_dvd (hd it) n
        unfold umul at hm
        split at hm
        · cases hm; exact h1
        · split at hm
          · cases hm
          · cases hm
            exact (Nat.dvd_mod_iff hu).mpr h1
      simp only [ok_bind]
      rw [udiv_ok hα, udiv_ok hβ]
      simp only [ok_bind]
      congr 1; funext a
      rw [umul_div_self c hm _ hc]
      simp only [ok_bind]
      rw [udiv_ok hβ, Nat.div_mul_cancel hdvd]
      rfl
    | _ => rfl

theorem znested_alike (c : Cfg) (hc : 0 < c.usize)
    (hα : 0 < Packable.size α) (hβ : 0 < Packable.size β) :
    Alike c (ZMapOf.nested : ZMapOf Z (zcomposeFn f g) → _) where
  next m := by
    simp only [SIMDIterable.next, SIMDMap.next, SIMDZipMap.next, bind_assoc, ZMapOf.nested, ZMapOf.map,
      simdMap, zsimdMap]
    congr 1; funext r
    obtain ⟨r, it⟩ := r
    cases r with
    | none => rfl
    | some v => simp only [bind_assoc, ok_bind, zcomposeFn, ZMapOf.ofMap]
  end_ m := by
    simp only [endVector, SIMDIterator.end_, SIMDMap.end_, SIMDZipMap.end_, bind_assoc, ZMapOf.nested,
      ZMapOf.map, simdMap, zsimdMap]
    congr 1; funext r
    obtain ⟨r, it⟩ := r
    cases r with
    | none => rfl
    | some q =>
      obtain ⟨v, n⟩ := q
      simp only [bind_assoc, ok_bind, zcomposeFn]
      cases hm : umul c n (SIMDZippedIterator.size it) with
      | ok x =>
        simp only [ok_bind]
        rw [udiv_ok hα, udiv_ok hβ]
        simp only [ok_bind]
        congr 1; funext a
        rw [umul_div_self c hm _ hc]
        simp only [ok_bind]
        rw [udiv_ok hβ]
        rfl
      | _ => rfl
  len _ := rfl

end

section
variable {Z σ τ γ α β : Type} {w w' : Nat} [SIMDZippedIterator Z γ] [Packable α] [Packable β]
variable (c : Cfg) (f : FnMut σ γ (Vector α w)) (g : FnMut τ (Vector α w) (Vector β w'))
  (z : Z) (s : σ) (t : τ)

/-- **C55** for zips, `simd_do_each`, any zipped iterator. -/
theorem C55_zip_do_each {ρ : Type} (hc : 0 < c.usize) (hα : 0 < Packable.size α)
    (hβ : 0 < Packable.size β) (fuel : Nat) (st : ρ) (k : FnMut ρ (Vector β w') Unit) :
    simdDoEach c fuel (simdMap (zsimdMap z s f) t g) st k =
      simdDoEach c fuel (zsimdMap z (s, t) (zcomposeFn f g)) st k >>= fun r =>
        ok (zunfuse f g r.1, r.2) := by
  have h1 := (znested_alike (f := f) (g := g) (Z := Z) c hc hα hβ).simdDoEach k fuel ⟨z, (s, t)⟩ st
  have h2 := (zmapOf_alike (f := zcomposeFn f g) (Z := Z) c).simdDoEach k fuel ⟨z, (s, t)⟩ st
  refine h1.trans ?_
  rw [show zsimdMap z (s, t) (zcomposeFn f g) = (⟨z, (s, t)⟩ : ZMapOf Z (zcomposeFn f g)).map from rfl,
    h2]
  simp only [bind_assoc, ok_bind]
  rfl

/-- **C55** for zips, `simd_reduce`. -/
theorem C55_zip_reduce {A ρ : Type} (hc : 0 < c.usize) (hα : 0 < Packable.size α)
    (hβ : 0 < Packable.size β) (fuel : Nat) (start : A) (st : ρ)
    (k : ρ → A → Vector β w' → Res (A × ρ)) :
    simdReduce c fuel (simdMap (zsimdMap z s f) t g) start st k =
      simdReduce c fuel (zsimdMap z (s, t) (zcomposeFn f g)) start st k >>= fun r =>
        ok (zunfuse f g r.1, r.2) := by
  have h1 := (znested_alike (f := f) (g := g) (Z := Z) c hc hα hβ).simdReduce k fuel ⟨z, (s, t)⟩ start st
  have h2 := (zmapOf_alike (f := zcomposeFn f g) (Z := Z) c).simdReduce k fuel ⟨z, (s, t)⟩ start st
  refine h1.trans ?_
  rw [show zsimdMap z (s, t) (zcomposeFn f g) = (⟨z, (s, t)⟩ : ZMapOf Z (zcomposeFn f g)).map from rfl,
    h2]
  simp only [bind_assoc, ok_bind]
  rfl

/-- **C55** for zips, `scalar_fill`. Missing as in `C55_fill_partial`. -/
theorem C55_zip_fill_partial (hc : 0 < c.usize) (hα : 0 < Packable.size α) (hβ : 0 < Packable.size β)
    (hd : ∀ z : Z, Packable.size α ∣ SIMDZippedIterator.size z) (hu : Packable.size α ∣ c.usize)
    (fuel : Nat) (buf : List β) :
    scalarFill c fuel (simdMap (zsimdMap z s f) t g) buf =
      scalarFill c fuel (zsimdMap z (s, t) (zcomposeFn f g)) buf >>= fun r =>
        ok (zunfuse f g r.1, r.2) := by
  have h1 := (znested_alike (f := f) (g := g) (Z := Z) c hc hα hβ).scalarFill
    (znested_alikeEnd c hc hα hβ hd hu) fuel ⟨z, (s, t)⟩ buf
  have h2 := (zmapOf_alike (f := zcomposeFn f g) (Z := Z) c).scalarFill (zmapOf_alikeEnd c) fuel
    ⟨z, (s, t)⟩ buf
  refine h1.trans ?_
  rw [show zsimdMap z (s, t) (zcomposeFn f g) = (⟨z, (s, t)⟩ : ZMapOf Z (zcomposeFn f g)).map from rfl,
    h2]
  simp only [bind_assoc, ok_bind]
  rfl

/-- **C55** for zips, `scalar_collect`. Missing as in `C55_collect_partial`. -/
theorem C55_zip_collect_partial (hc : 0 < c.usize) (hα : 0 < Packable.size α)
    (hβ : 0 < Packable.size β) (hd : ∀ z : Z, Packable.size α ∣ SIMDZippedIterator.size z)
    (hu : Packable.size α ∣ c.usize) (fuel : Nat) :
    scalarCollect c fuel (simdMap (zsimdMap z s f) t g) =
      scalarCollect c fuel (zsimdMap z (s, t) (zcomposeFn f g)) >>= fun r =>
        ok (zunfuse f g r.1, r.2) := by
  have h1 := (znested_alike (f := f) (g := g) (Z := Z) c hc hα hβ).scalarCollect
    (znested_alikeEnd c hc hα hβ hd hu) fuel ⟨z, (s, t)⟩
  have h2 := (zmapOf_alike (f := zcomposeFn f g) (Z := Z) c).scalarCollect (zmapOf_alikeEnd c) fuel
    ⟨z, (s, t)⟩
  refine h1.trans ?_
  rw [show zsimdMap z (s, t) (zcomposeFn f g) = (⟨z, (s, t)⟩ : ZMapOf Z (zcomposeFn f g)).map from rfl,
    h2]
  simp only [bind_assoc, ok_bind]
  rfl

end

/-- Both builds meet the hypotheses for all lane types. -/
example : Packable.size (BitVec 8) ∣ debug64.usize ∧ Packable.size (BitVec 64) ∣ release64.usize ∧
    0 < debug64.usize := by decide

/-- A counter in each closure, through smaller lanes and back, over three elements in pairs. -/
example : (do
    let (_, out) ← scalarCollect debug64 9 (simdMap (simdMap
      (simdIter (w := 2) [7#16, 8, 9] (Vector.replicate 2 1)) 1#8
        (fun s v => ok ((#v[v[0].setWidth 8 + s, 0, v[1].setWidth 8, 0] : Vector (BitVec 8) 4), s + 1)))
      5#16 (fun t v => ok ((#v[v[0].setWidth 16 * t, v[2].setWidth 16] : Vector (BitVec 16) 2), t + 1)))
    ok out) = ok ([40#16, 8, 9].map some) := by decide +kernel

end Faster
