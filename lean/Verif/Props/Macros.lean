import Verif.Macros
import Verif.Lemmas.Pow
import Verif.Lemmas.Merge
import Verif.Props.Transmute
import Verif.Select
/-
C116: the literal arguments of the macros which write out tuples and types.
-/
namespace Faster
open Res SIMDSized SIMDIterable SIMDIterator

variable {T α : Type} {w : Nat}

/-- The fields of every tuple are written in order, for 2 to 13 iterators, once each. -/
theorem zipArms_facts : (∀ arm ∈ zipArms, 2 ≤ arm.types.length ∧ arm.types.Nodup ∧
      arm.fields = (List.range (arm.types.length - 1)).map (· + 1)) ∧
    zipArms.map (·.types.length) = (List.range 12).map (· + 2) := by
  decide +kernel

theorem field_succ (t : T) (l : List T) (n : Nat) : field (t :: l) (n + 1) = field l n := rfl
theorem field_zero (t : T) (l : List T) : field (t :: l) 0 = ok t := rfl

theorem mapM_fields {β : Type} (g : T → Res β) (l : List T) (k : Nat) (hk : l.length = k) :
    (List.range k).mapM (fun n => do g (← field l n)) = l.mapM g := by
  subst hk
  induction l with
  | nil => rfl
  | cons t l ih =>
    rw [List.length_cons, List.range_succ_eq_map, List.mapM_cons, List.mapM_map, List.mapM_cons]
    rw [field_zero, ok_bind]
    congr 1
    funext b
    simp only [Function.comp_def, Nat.succ_eq_add_one, field_succ]
    rw [ih]

theorem mapM_fields_succ {β : Type} (g : T → Res β) (t : T) (l : List T) (k : Nat) (hk : l.length = k) :
    ((List.range k).map (· + 1)).mapM (fun n => do g (← field (t :: l) n)) = l.mapM g := by
  rw [List.mapM_map]
  simp only [Function.comp_def, field_succ]
  exact mapM_fields g l k hk

theorem PowT.toList_length {k : Nat} (r : PowT T k) : (PowT.toList r).length = k := by
  induction k with
  | zero => rfl
  | succ k ih => simp [PowT.toList, ih]

section
variable [SIMDSized T] [SIMDIterator T α w] [SIMDArray T α w]

theorem pow_nextAll (c : Cfg) (pos : Nat) : ∀ {k : Nat} (r : PowT T k),
    ((ZipRest.nextAll c r pos : Res (PowT (Vector α w) k)) >>= fun vs => ok (PowT.toList vs)) =
      (PowT.toList r).mapM fun t => nextUnchecked c t pos
  | 0, _ => rfl
  | k + 1, r => by
    have ih := pow_nextAll c pos (PowT.tail r)
    simp only [PowT.toList, List.mapM_cons]
    rw [← ih]
    have hd : (ZipRest.nextAll c r pos : Res (PowT (Vector α w) (k + 1))) =
        (nextUnchecked c (PowT.head r) pos >>= fun v =>
          (ZipRest.nextAll c (PowT.tail r) pos : Res (PowT (Vector α w) k)) >>= fun vs =>
            (ok (v, vs) : Res (PowT (Vector α w) (k + 1)))) := rfl
    rw [hd]
    cases nextUnchecked c (PowT.head r) pos with
    | ok v =>
      cases (ZipRest.nextAll c (PowT.tail r) pos : Res (PowT (Vector α w) k)) <;> rfl
    | _ => rfl

theorem pow_endAll (c : Cfg) (pos n : Nat) : ∀ {k : Nat} (r : PowT T k),
    ((ZipRest.endAll c r pos n : Res (PowT (Vector α w) k)) >>= fun vs => ok (PowT.toList vs)) =
      (PowT.toList r).mapM fun t => endUnchecked c t pos n
  | 0, _ => rfl
  | k + 1, r => by
    have ih := pow_endAll c pos n (PowT.tail r)
    simp only [PowT.toList, List.mapM_cons]
    rw [← ih]
    have hd : (ZipRest.endAll c r pos n : Res (PowT (Vector α w) (k + 1))) =
        (endUnchecked c (PowT.head r) pos n >>= fun v =>
          (ZipRest.endAll c (PowT.tail r) pos n : Res (PowT (Vector α w) k)) >>= fun vs =>
            (ok (v, vs) : Res (PowT (Vector α w) (k + 1)))) := rfl
    rw [hd]
    cases endUnchecked c (PowT.head r) pos n with
    | ok v =>
      cases (ZipRest.endAll c (PowT.tail r) pos n : Res (PowT (Vector α w) k)) <;> rfl
    | _ => rfl

theorem pow_dfltAll : ∀ {k : Nat} (r : PowT T k),
    PowT.toList (ZipRest.defaultAll r : PowT (Vector α w) k) = (PowT.toList r).map dflt
  | 0, _ => rfl
  | k + 1, r => by
    have ih := pow_dfltAll (PowT.tail r)
    simp only [PowT.toList, List.map_cons]
    rw [← ih]
    rfl

theorem pow_lenDiffers (c : Cfg) (t : T) (len : Nat) (hl : SIMDIterable.len c t = ok len) :
    ∀ {k : Nat} (r : PowT T k) (pre : List T) (iters : List T), iters = t :: (pre ++ PowT.toList r) →
      ZipArm.lenDiffers c iters ((List.range k).map (· + (pre.length + 1))) =
        ZipRest.lenDiffers (γ := PowT (Vector α w) k) c r len
  | 0, _, _, _, _ => rfl
  | k + 1, r, pre, iters, hi => by
    have ih := pow_lenDiffers c t len hl (PowT.tail r) (pre ++ [PowT.head r]) iters
      (by rw [hi, List.append_assoc]; rfl)
    have hd : (ZipRest.lenDiffers (γ := PowT (Vector α w) (k + 1)) c r len) =
        (SIMDIterable.len c (PowT.head r) >>= fun l =>
          if len ≠ l then ok true else
            ZipRest.lenDiffers (γ := PowT (Vector α w) k) c (PowT.tail r) len) := rfl
    rw [hd, ← ih, List.range_succ_eq_map, List.map_cons, List.map_map]
    have h0 : field iters 0 = ok t := by rw [hi]; rfl
    have h1 : field iters (0 + (pre.length + 1)) = ok (PowT.head r) := by
      rw [hi, Nat.zero_add, field_succ]
      unfold field
      rw [List.getElem?_append_right (Nat.le_refl _), Nat.sub_self]
      rfl
    rw [ZipArm.lenDiffers, h0, h1, ok_bind, hl, ok_bind, ok_bind]
    have hf : ((fun x => x + (pre.length + 1)) ∘ Nat.succ) =
        (fun x => x + ((pre ++ [PowT.head r]).length + 1)) := by
      funext x; simp; omega
    rw [hf]

/-- **C116**: each of the twelve expansions of `impl_iter_zip!` is the zip of the model: the checks
of `zip`, `next`, `end` and `default` of a tuple of iterators, for every implementation of the
iterator traits. -/
theorem C116_zip (arm : ZipArm) (harm : arm ∈ zipArms) (c : Cfg) (t : T)
    (r : PowT T (arm.types.length - 1)) :
    (arm.zip c (t :: PowT.toList r) =
      (zip (γ := PowT (Vector α w) (arm.types.length - 1)) c t r >>= fun z => ok (z.first :: PowT.toList z.rest))) ∧
    (arm.next c (t :: PowT.toList r) =
      (Zip.next (γ := PowT (Vector α w) (arm.types.length - 1)) c (⟨t, r⟩ : Zip T _) >>= fun p =>
        ok (p.1.map fun v => v.1 :: PowT.toList v.2, p.2.first :: PowT.toList p.2.rest))) ∧
    (arm.end_ c (t :: PowT.toList r) =
      (Zip.end_ (γ := PowT (Vector α w) (arm.types.length - 1)) c (⟨t, r⟩ : Zip T _) >>= fun p =>
        ok (p.1.map fun v => (v.1.1 :: PowT.toList v.1.2, v.2), p.2.first :: PowT.toList p.2.rest))) ∧
    (arm.default (t :: PowT.toList r) =
      ok (dflt t :: PowT.toList (ZipRest.defaultAll r : PowT (Vector α w) (arm.types.length - 1)))) := by
  obtain ⟨h2, -, hf⟩ := zipArms_facts.1 arm harm
  generalize hk : arm.types.length - 1 = k at *
  have hk0 : 0 < k := by omega
  refine ⟨?_, ?_, ?_, ?_⟩
  · unfold ZipArm.zip zip
    rw [hf]
    cases hl : SIMDIterable.len c t with
    | ok len =>
      have h := pow_lenDiffers (α := α) (w := w) c t len hl r [] (t :: PowT.toList r) rfl
      simp only [List.length_nil, Nat.zero_add] at h
      rw [h, ok_bind]
      cases ZipRest.lenDiffers (γ := PowT (Vector α w) k) c r len with
      | ok b => cases b <;> rfl
      | _ => rfl
    | _ =>
      obtain ⟨k, rfl⟩ : ∃ k', k = k' + 1 := ⟨k - 1, by omega⟩
      rw [List.range_succ_eq_map, List.map_cons]
      unfold ZipArm.lenDiffers
      rw [field_zero, ok_bind, hl]
      rfl
  · unfold ZipArm.next Zip.next
    rw [field_zero, ok_bind]
    cases SIMDIterable.scalarPos c t with
    | ok pos =>
      rw [ok_bind, ok_bind, ok_bind]
      cases SIMDIterable.next c t with
      | ok p =>
        obtain ⟨o, t'⟩ := p
        simp only [ok_bind, List.set_cons_zero]
        cases o with
        | none => rfl
        | some v =>
          simp only
          rw [hf, mapM_fields_succ _ _ _ k (PowT.toList_length r), ← pow_nextAll]
          cases (ZipRest.nextAll c r pos : Res (PowT (Vector α w) k)) <;> rfl
      | _ => rfl
    | _ => rfl
  · unfold ZipArm.end_ Zip.end_
    rw [field_zero, ok_bind]
    cases SIMDIterable.scalarPos c t with
    | ok pos =>
      rw [ok_bind, ok_bind, ok_bind]
      cases SIMDIterator.end_ c t with
      | ok p =>
        obtain ⟨o, t'⟩ := p
        simp only [ok_bind, List.set_cons_zero]
        cases o with
        | none => rfl
        | some v =>
          obtain ⟨v, n⟩ := v
          simp only
          rw [hf, mapM_fields_succ _ _ _ k (PowT.toList_length r), ← pow_endAll]
          cases (ZipRest.endAll c r pos n : Res (PowT (Vector α w) k)) <;> rfl
      | _ => rfl
    | _ => rfl
  · unfold ZipArm.default
    rw [field_zero, ok_bind, hf, mapM_fields_succ (fun t => ok (dflt t)) _ _ k (PowT.toList_length r),
      pow_dfltAll]
    have : ∀ l : List T, (l.mapM fun t => (ok (dflt t) : Res (Vector α w))) = ok (l.map dflt) := by
      intro l
      induction l with
      | nil => rfl
      | cons t l ih => rw [List.mapM_cons, ok_bind, ih]; rfl
    rw [this]
    rfl

end

/-- Three iterators zipped by the macro: the first vectors of each. -/
example : ∃ arm ∈ zipArms, arm.types.length = 3 ∧ (do
    let z ← arm.zip release64 [simdIter (w := 2) [1#8, 2, 3] (Vector.replicate 2 0),
      simdIter [4#8, 5, 6] (Vector.replicate 2 0), simdIter [7#8, 8, 9] (Vector.replicate 2 0)]
    let (v, _) ← arm.next release64 z
    ok v) = ok (some [#v[1#8, 2], #v[4, 5], #v[7, 8]]) :=
  ⟨_, .tail _ List.mem_cons_self, rfl, by decide +kernel⟩

/-- **C116**: `tuplify!(n, x)` is a tuple of `n` copies, for every `n` from 1 to 12 (and no other). -/
theorem C116_tuplify (n : Nat) (x : α) :
    tuplify n x = if 1 ≤ n ∧ n ≤ 12 then some (List.replicate n x) else none := by
  by_cases h : n ≤ 12
  · have : ∀ n ≤ 12, tuplifyArms.lookup n = if 1 ≤ n then some n else none := by decide +kernel
    unfold tuplify
    rw [this n h]
    by_cases h1 : 1 ≤ n <;> simp [h, h1]
  · have : tuplifyArms.lookup n = none := by
      rw [List.lookup_eq_none_iff]
      intro p hp
      have : ∀ p ∈ tuplifyArms, p.1 ≤ 12 := by decide +kernel
      have := this p hp
      simp; omega
    unfold tuplify
    rw [this]
    simp [h]

/-- Every stride literal has the offset of its place, for 2, 3, 4 and 9 iterators. -/
theorem strideLits_facts : (∀ s ∈ strideLits,
      s.2 = (List.range s.2.length).map fun k => ⟨k, k, s.2.length, k⟩) ∧
    strideLits.map (fun s => (s.1, s.2.length)) =
      [("stride_two", 2), ("stride_three", 3), ("stride_four", 4), ("stride_nine", 9)] := by
  decide +kernel

/-- **C116**: `stride_two` … `stride_nine` return the iterators of `stride_into` with the same
number of defaults. -/
theorem C116_stride {A : Type} (s : String × List StrideLit) (hs : s ∈ strideLits) (a : A)
    (d : List (Vector α w)) (hd : d.length = s.2.length) :
    stridesOf s.2 a d = strideInto a s.2.length d ∧
    ∃ l, strideInto a s.2.length d = ok l ∧ l.length = s.2.length ∧
      ∀ k (h : k < d.length), l[k]? = some ⟨a, k, k, s.2.length, d[k]⟩ := by
  have hf := strideLits_facts.1 s hs
  generalize s.2.length = n at *
  have hm : ∀ (g : Nat → Vector α w → PackedStride A α w) (ks : List Nat) (hks : ∀ k ∈ ks, k < d.length)
      (f : Nat → Res (Vector α w)) (hfk : ∀ k (h : k < d.length), f k = ok d[k]),
      ks.mapM (fun k => do ok (g k (← f k))) =
        ok (ks.attach.map fun k => g k.1 (d[k.1]'(hks k.1 k.2))) := by
    intro g ks hks f hfk
    induction ks with
    | nil => rfl
    | cons k ks ih =>
      rw [List.mapM_cons, hfk k (hks k (by simp)), ok_bind, ok_bind,
        ih (fun j hj => hks j (by simp [hj]))]
      simp [List.attach_cons]
  have hr : ∀ k ∈ List.range n, k < d.length := by intro k hk; rw [hd]; simpa using hk
  have e1 : stridesOf s.2 a d = ok ((List.range n).attach.map fun k =>
      (⟨a, k.1, k.1, n, d[k.1]'(hr k.1 k.2)⟩ : PackedStride A α w)) := by
    rw [← hm (fun k v => ⟨a, k, k, n, v⟩) (List.range n) hr (field d)
      (by intro k h; unfold field; rw [List.getElem?_eq_getElem h])]
    unfold stridesOf
    rw [hf, List.mapM_map]
    rfl
  have e2 : strideInto a n d = ok ((List.range n).attach.map fun k =>
      (⟨a, k.1, k.1, n, d[k.1]'(hr k.1 k.2)⟩ : PackedStride A α w)) := by
    rw [← hm (fun k v => ⟨a, k, k, n, v⟩) (List.range n) hr (getUnchecked d)
      (by intro k h; unfold getUnchecked; simp [h])]
    unfold strideInto
    rw [decide_eq_true hd, assert_true, ok_bind]
    rfl
  refine ⟨e1.trans e2.symm, _, e2, by simp, ?_⟩
  intro k hk
  have : k < n := by omega
  simp [this]

/-- The model's `strideTwo` … `strideNine` are these expansions. -/
theorem C116_stride_model {A : Type} (a : A) (d : Nat → Vector α w) :
    let l := fun n => (List.range n).map d
    (∃ s ∈ strideLits, s.1 = "stride_two" ∧ stridesOf s.2 a (l 2) =
      let (x, y) := strideTwo a (d 0, d 1); ok [x, y]) ∧
    (∃ s ∈ strideLits, s.1 = "stride_three" ∧ stridesOf s.2 a (l 3) =
      let (x, y, z) := strideThree a (d 0, d 1, d 2); ok [x, y, z]) ∧
    (∃ s ∈ strideLits, s.1 = "stride_four" ∧ stridesOf s.2 a (l 4) =
      let (x, y, z, u) := strideFour a (d 0, d 1, d 2, d 3); ok [x, y, z, u]) ∧
    (∃ s ∈ strideLits, s.1 = "stride_nine" ∧ stridesOf s.2 a (l 9) =
      let (x0, x1, x2, x3, x4, x5, x6, x7, x8) :=
        strideNine a (d 0, d 1, d 2, d 3, d 4, d 5, d 6, d 7, d 8)
      ok [x0, x1, x2, x3, x4, x5, x6, x7, x8]) := by
  refine ⟨⟨_, List.mem_cons_self, rfl, rfl⟩, ⟨_, .tail _ List.mem_cons_self, rfl, rfl⟩,
    ⟨_, .tail _ (.tail _ List.mem_cons_self), rfl, rfl⟩,
    ⟨_, .tail _ (.tail _ (.tail _ List.mem_cons_self)), rfl, rfl⟩⟩

/-- **C116**: every element type with a vector type can be iterated over, with its own vector
type. -/
theorem C116_into : intoPairs.map (·.1) = elements ∧ ∀ p ∈ intoPairs, p.2 = p.1 ++ "s" := by
  decide +kernel

/-- **C116**: every `be_…` method transmutes to a vector type of the element type in its name and
of the same number of bytes, so it is a reinterpretation which can be undone (C52). -/
theorem C116_transmute : ∀ arm ∈ transmuteArms, ∀ t ∈ arm.types, ∀ f ∈ transmuteFns, ∃ to,
    arm.target f.1 = some to ∧ elementOf to ++ ['s'] = f.1.toList ∧
    ∃ a b, shape t = some a ∧ shape to = some b ∧ a.1 * a.2 = b.1 * b.2 ∧ 0 < a.1 := by
  have h : ∀ arm ∈ transmuteArms, ∀ t ∈ arm.types, ∀ f ∈ transmuteFns,
      (arm.target f.1).any (fun to => elementOf to ++ ['s'] = f.1.toList ∧
        (shape t).any fun a => (shape to).any fun b => a.1 * a.2 = b.1 * b.2 ∧ 0 < a.1) := by
    decide +kernel
  intro arm ha t ht f hf
  have := h arm ha t ht f hf
  simp only [Option.any_eq_true, decide_eq_true_eq] at this
  obtain ⟨to, h1, h2, a, h3, b, h4, h5⟩ := this
  exact ⟨to, h1, h2, a, b, h3, h4, h5⟩

/-- Every vector type has the methods, on both kinds of targets. -/
example : (transmuteArms.map (·.types.length)) = [10, 10, 10, 10] ∧
    transmuteFns.length = 10 := by decide +kernel

end Faster
