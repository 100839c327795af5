import Verif.Props.CountEqual
/-
C155: the smallest or largest element of a slice.
-/
namespace Faster
open Res

variable {n w : Nat} {c : Cfg} {signed big : Bool}

/-- A version of `min` (`big = false`) or `max` for integer lanes. -/
def ExtremeOp (signed big : Bool)
    (F : Vector (BitVec n) w → Vector (BitVec n) w → Res (Vector (BitVec n) w)) : Prop :=
  ∀ a b, ∃ v, F a b = ok v ∧ ∀ i (hi : i < w), IsExtreme signed big a[i] b[i] v[i]

/-- `Ord::min` or `Ord::max` of two scalars: of equal numbers `min` returns the first, `max` the
second, which are the same. -/
def scalarExtreme (signed big : Bool) (a x : BitVec n) : BitVec n :=
  if big then (if num signed a ≤ num signed x then x else a)
  else (if num signed a ≤ num signed x then a else x)

/-- `slice.simd_iter(d).simd_reduce(start, |acc, v| acc.min(v)).scalar_reduce(s0, |a, x| a.min(x))`,
or the same with `max`. -/
def sliceExtreme (c : Cfg) (fuel : Nat)
    (F : Vector (BitVec n) w → Vector (BitVec n) w → Res (Vector (BitVec n) w)) (signed big : Bool)
    (data : List (BitVec n)) (d start : Vector (BitVec n) w) (s0 : BitVec n) : Res (BitVec n) := do
  let (_, acc, _) ← simdReduce c fuel (simdIter data d) start () fun _ acc v => do
    let u ← F acc v
    ok (u, ())
  Packed.scalarReduce acc s0 fun a x => ok (scalarExtreme signed big a x)

/-- At most (or, for `big`, at least) as large. -/
def NotBeyond (signed big : Bool) (x y : BitVec n) : Prop :=
  if big then num signed y ≤ num signed x else num signed x ≤ num signed y

/-- Specification: the smallest or largest number of a list. -/
def ExtremeOf (signed big : Bool) (l : List (BitVec n)) (r : BitVec n) : Prop :=
  r ∈ l ∧ ∀ y ∈ l, NotBeyond signed big r y

theorem NotBeyond.refl (x : BitVec n) : NotBeyond signed big x x := by
  cases big <;> simp [NotBeyond]

theorem NotBeyond.trans {x y z : BitVec n} (h : NotBeyond signed big x y) (h' : NotBeyond signed big y z) :
    NotBeyond signed big x z := by
  cases big <;> simp only [NotBeyond, if_true, if_false, Bool.false_eq_true] at * <;> omega

theorem NotBeyond.antisymm {x y : BitVec n} (h : NotBeyond signed big x y)
    (h' : NotBeyond signed big y x) : x = y := by
  apply num_inj signed
  cases big <;> simp only [NotBeyond, if_true, if_false, Bool.false_eq_true] at * <;> omega

theorem isExtreme_notBeyond {a b r : BitVec n} (h : IsExtreme signed big a b r) :
    NotBeyond signed big r a ∧ NotBeyond signed big r b := by
  obtain ⟨-, h⟩ := h
  cases big <;> simp only [NotBeyond, if_true, if_false, Bool.false_eq_true] at * <;> omega

theorem scalarExtreme_isExtreme (a x : BitVec n) :
    IsExtreme signed big a x (scalarExtreme signed big a x) := by
  unfold IsExtreme scalarExtreme
  cases big <;> simp only [if_true, if_false, Bool.false_eq_true] <;> split <;> simp <;> omega

/-- The lanes of the accumulator are among the numbers seen, and none of them is beyond all lanes. -/
def Covers (signed big : Bool) (acc pool : List (BitVec n)) : Prop :=
  (∀ a ∈ acc, a ∈ pool) ∧ ∀ y ∈ pool, ∃ a ∈ acc, NotBeyond signed big a y

theorem covers_fold {F : Vector (BitVec n) w → Vector (BitVec n) w → Res (Vector (BitVec n) w)}
    (hF : ExtremeOp signed big F) (vs : List (Vector (BitVec n) w)) : ∀ (start : Vector (BitVec n) w) (pool),
    Covers signed big start.toList pool →
    ∃ acc, vs.foldlM (fun (p : Vector (BitVec n) w × Unit) v => (do
        let u ← F p.1 v
        ok (u, ()) : Res (Vector (BitVec n) w × Unit))) (start, ()) = ok (acc, ()) ∧
      Covers signed big acc.toList (pool ++ lanes vs) := by
  induction vs with
  | nil => intro start pool h; exact ⟨start, rfl, by simpa using h⟩
  | cons v vs ih =>
    intro start pool h
    obtain ⟨u, hu, hl⟩ := hF start v
    have hc : Covers signed big u.toList (pool ++ v.toList) := by
      constructor
      · intro a ha
        obtain ⟨i, hi, rfl⟩ := List.getElem_of_mem ha
        simp only [Vector.length_toList] at hi
        simp only [Vector.getElem_toList]
        rw [List.mem_append]
        rcases (hl i hi).1 with e | e
        · left; rw [e]; exact h.1 _ (by simp)
        · right; rw [e]; simp
      · intro y hy
        rcases List.mem_append.1 hy with hy | hy
        · obtain ⟨a, ha, hay⟩ := h.2 y hy
          obtain ⟨i, hi, rfl⟩ := List.getElem_of_mem ha
          simp only [Vector.length_toList] at hi
          simp only [Vector.getElem_toList] at hay
          exact ⟨u[i], by simp, (isExtreme_notBeyond (hl i hi)).1.trans hay⟩
        · obtain ⟨i, hi, rfl⟩ := List.getElem_of_mem hy
          simp only [Vector.length_toList] at hi
          simp only [Vector.getElem_toList]
          exact ⟨u[i], by simp, (isExtreme_notBeyond (hl i hi)).2⟩
    obtain ⟨acc, h1, h2⟩ := ih u _ hc
    refine ⟨acc, ?_, by rwa [lanes_cons, ← List.append_assoc]⟩
    rw [List.foldlM_cons]
    simp only [hu, ok_bind]
    exact h1

theorem scalar_fold (l : List (BitVec n)) : ∀ s0 : BitVec n, ∃ r,
    l.foldlM (fun a x => (ok (scalarExtreme signed big a x) : Res (BitVec n))) s0 = ok r ∧
      ExtremeOf signed big (s0 :: l) r := by
  induction l with
  | nil =>
    intro s0
    refine ⟨s0, rfl, by simp, ?_⟩
    intro y hy
    rw [List.mem_singleton.1 hy]
    exact .refl _
  | cons x l ih =>
    intro s0
    obtain ⟨r, h1, h2, h3⟩ := ih (scalarExtreme signed big s0 x)
    have he := scalarExtreme_isExtreme (signed := signed) (big := big) s0 x
    have hb := isExtreme_notBeyond he
    refine ⟨r, h1, ?_, ?_⟩
    · rcases List.mem_cons.1 h2 with h | h
      · rcases he.1 with e | e <;> simp [h, e]
      · simp [h]
    · intro y hy
      have h0 := h3 _ List.mem_cons_self
      simp only [List.mem_cons] at hy
      rcases hy with rfl | rfl | hy
      · exact h0.trans hb.1
      · exact h0.trans hb.2
      · exact h3 y (List.mem_cons_of_mem _ hy)

theorem mem_lanes_calls_iff {α : Type} [DecidableEq α] (hw : 0 < w) (d : Vector α w) (l : List α) (x : α) :
    x ∈ lanes (calls w d l) ↔ x ∈ l ∨ x ∈ padding w d l := by
  have := lanes_calls_count hw d l x
  rw [← List.count_pos_iff, ← List.count_pos_iff, ← List.count_pos_iff, this]
  omega

/-- **C155**: the smallest (or largest) of the elements, the two starting values and the lanes of the
default vector which fill the last vector. -/
theorem C155_extreme (hw : 0 < w)
    {F : Vector (BitVec n) w → Vector (BitVec n) w → Res (Vector (BitVec n) w)}
    (hF : ExtremeOp signed big F) (fuel : Nat) (data : List (BitVec n)) (d start : Vector (BitVec n) w)
    (s0 : BitVec n) (hlen : data.length + w < c.usize) (hfuel : data.length / w < fuel) :
    ∃ r, sliceExtreme c fuel F signed big data d start s0 = ok r ∧
      ExtremeOf signed big (data ++ s0 :: start.toList ++ padding w d data) r := by
  obtain ⟨acc, h1, h2⟩ := covers_fold hF (calls w d data) start start.toList
    ⟨fun _ h => h, fun y h => ⟨y, h, .refl _⟩⟩
  obtain ⟨r, h3, h4, h5⟩ := scalar_fold (signed := signed) (big := big) acc.toList s0
  refine ⟨r, ?_, ?_, ?_⟩
  · unfold sliceExtreme
    rw [C03_reduce_fold c fuel data d start () _ hw hlen hfuel]
    have h' : (do
        let (acc, st') ← (calls w d data).foldlM (fun (p : Vector (BitVec n) w × Unit) v => (do
          let u ← F p.1 v
          ok (u, ()) : Res (Vector (BitVec n) w × Unit))) (start, ())
        ok ((⟨data.length, ⟨data⟩, d⟩ : SIMDIter (Slice (BitVec n) w) (BitVec n) w), acc, st')) =
        ok (⟨data.length, ⟨data⟩, d⟩, acc, ()) := by
      rw [h1]; rfl
    rw [h']
    simp only [ok_bind, Packed.scalarReduce]
    rw [scalarReduceLoop_ok _ _ w 0 s0 (by omega), List.drop_zero, h3]
  · simp only [List.mem_append, List.mem_cons]
    rcases List.mem_cons.1 h4 with h | h
    · simp [h]
    · rcases List.mem_append.1 (h2.1 r h) with h | h
      · simp [h]
      · rcases (mem_lanes_calls_iff hw d data r).1 h with h | h <;> simp [h]
  · intro y hy
    have key (hy : y ∈ start.toList ++ lanes (calls w d data)) : NotBeyond signed big r y := by
      obtain ⟨a, ha, hay⟩ := h2.2 y hy
      exact (h5 a (List.mem_cons_of_mem _ ha)).trans hay
    simp only [List.mem_append, List.mem_cons] at hy
    rcases hy with (hy | rfl | hy) | hy
    · exact key (List.mem_append_right _ ((mem_lanes_calls_iff hw d data y).2 (.inl hy)))
    · exact h5 _ List.mem_cons_self
    · exact key (List.mem_append_left _ hy)
    · exact key (List.mem_append_right _ ((mem_lanes_calls_iff hw d data y).2 (.inr hy)))

/-- **C155**: the result is that of the elements exactly if every starting value and every lane which
fills the last vector has an element which is not beyond it. -/
theorem C155_iff (hw : 0 < w)
    {F : Vector (BitVec n) w → Vector (BitVec n) w → Res (Vector (BitVec n) w)}
    (hF : ExtremeOp signed big F) (fuel : Nat) (data : List (BitVec n)) (d start : Vector (BitVec n) w)
    (s0 : BitVec n) (hlen : data.length + w < c.usize) (hfuel : data.length / w < fuel) :
    (∃ r, sliceExtreme c fuel F signed big data d start s0 = ok r ∧ ExtremeOf signed big data r) ↔
      ∀ y, y = s0 ∨ y ∈ start.toList ∨ y ∈ padding w d data → ∃ x ∈ data, NotBeyond signed big x y := by
  obtain ⟨r, h1, h2, h3⟩ := C155_extreme (c := c) hw hF fuel data d start s0 hlen hfuel
  constructor
  · rintro ⟨r', h1', h2', -⟩ y hy
    rw [h1] at h1'
    obtain rfl := Res.ok.inj h1'
    refine ⟨r, h2', h3 y ?_⟩
    simp only [List.mem_append, List.mem_cons]
    rcases hy with h | h | h <;> simp [h]
  · intro h
    refine ⟨r, h1, ?_, fun y hy => h3 y (by simp [hy])⟩
    have key (hr : r = s0 ∨ r ∈ start.toList ∨ r ∈ padding w d data) : r ∈ data := by
      obtain ⟨x, hx, hxr⟩ := h r hr
      have := (h3 x (by simp [hx])).antisymm hxr
      rwa [this]
    simp only [List.mem_append, List.mem_cons] at h2
    rcases h2 with (h | h | h) | h
    · exact h
    · exact key (.inl h)
    · exact key (.inr (.inl h))
    · exact key (.inr (.inr h))

/-- **C155**, partial: with `splat(z)` for both vectors, where no number is beyond `z` (such as `MAX` for
the minimum), the smallest (largest) element of every slice with an element. Missing: other default
vectors (`C155_false`; exactly, `C155_iff`). -/
theorem C155_partial (hw : 0 < w)
    {F : Vector (BitVec n) w → Vector (BitVec n) w → Res (Vector (BitVec n) w)}
    (hF : ExtremeOp signed big F) (fuel : Nat) (data : List (BitVec n)) (z : BitVec n)
    (hz : ∀ x, NotBeyond signed big x z) (hne : data ≠ []) (hlen : data.length + w < c.usize)
    (hfuel : data.length / w < fuel) :
    ∃ r, sliceExtreme c fuel F signed big data (Packed.splat z) (Packed.splat z) z = ok r ∧
      ExtremeOf signed big data r := by
  rw [C155_iff hw hF fuel data _ _ z hlen hfuel]
  obtain ⟨x, l, rfl⟩ := List.exists_cons_of_ne_nil hne
  intro y hy
  refine ⟨x, List.mem_cons_self, ?_⟩
  have hs : ∀ y ∈ (Packed.splat z : Vector (BitVec n) w).toList, y = z := by
    intro y hy
    rw [Packed.splat, Vector.toList_replicate] at hy
    exact (List.mem_replicate.1 hy).2
  have : y = z := by
    rcases hy with h | h | h
    · exact h
    · exact hs y h
    · unfold padding at h
      split at h
      · simp at h
      · exact hs y (List.mem_of_mem_take h)
  rw [this]
  exact hz x

/-- **C155**: all versions of `min` and `max` of integer vectors meet the hypothesis. -/
theorem C155_versions (c : Cfg) :
    (∀ r ∈ cmpRows, r.kind ≠ .f →
      ExtremeOp (n := 8 * r.size) (w := r.width) r.kind.signed (r.fn == .max) (binaryInstr r.mm)) ∧
    (∀ r, r ∈ cmpRows ∨ r ∈ cmpRowsUnknown → r.kind ≠ .f →
      ExtremeOp (n := 8 * r.size) (w := r.width) r.kind.signed (r.fn == .max)
        (binaryFallback (r.fn.eval c r.kind) r.idx)) :=
  ⟨fun r hr hk a b => C51_optimized r hr hk a b, fun r hr hk a b => C51_fallback c r hr hk a b⟩

/-- **C155** is false: with zero as default vector the smallest of five, six and seven seems to be
zero, for every version of `min` of more than three lanes. -/
theorem C155_false (hw : 3 < w) (hu : 3 + w < c.usize)
    {F : Vector (BitVec 8) w → Vector (BitVec 8) w → Res (Vector (BitVec 8) w)}
    (hF : ExtremeOp false false F) :
    sliceExtreme c 9 F false false [5, 6, 7] (Packed.splat 0) (Packed.splat 255) 255 = ok 0 ∧
      ExtremeOf false false [5#8, 6, 7] 5 := by
  constructor
  · obtain ⟨r, h1, -, h2⟩ := C155_extreme (c := c) (by omega) hF 9 [5, 6, 7] (Packed.splat 0)
      (Packed.splat 255) 255 hu (by simp [Nat.div_eq_of_lt hw])
    have h3 : 3 % w = 3 := Nat.mod_eq_of_lt hw
    have h0 : (0 : BitVec 8) ∈ padding w (Packed.splat 0 : Vector (BitVec 8) w) [5, 6, 7] := by
      simp only [padding, List.length_cons, List.length_nil, Nat.zero_add, Nat.reduceAdd, h3]
      rw [if_neg (by decide), Packed.splat, Vector.toList_replicate, List.take_replicate,
        List.mem_replicate]
      exact ⟨by omega, rfl⟩
    have := h2 0 (List.mem_append_right _ h0)
    rw [h1]
    congr 1
    apply BitVec.eq_of_toNat_eq
    simp [NotBeyond, num] at this
    simp [this]
  · constructor
    · simp
    · intro y hy
      simp only [List.mem_cons, List.not_mem_nil, or_false] at hy
      rcases hy with rfl | rfl | rfl <;> simp [NotBeyond, num]

/-- The hypotheses can be met: the smallest of five bytes, `u8x16` with SSE2. -/
example : ∃ r, sliceExtreme release64 9 (w := 16) (binaryInstr cmpRows[0].mm) false false [9#8, 4, 7, 6, 5]
    (Packed.splat 255) (Packed.splat 255) 255 = ok r ∧ ExtremeOf false false [9#8, 4, 7, 6, 5] r :=
  C155_partial (n := 8) (w := 16) (by decide) ((C155_versions release64).1 cmpRows[0] (by simp) (by decide)) 9 _ 255
    (fun x => by have := x.isLt; show (x.toNat : Int) ≤ 255; omega) (List.cons_ne_nil _ _) (by decide) (by decide)

end Faster
