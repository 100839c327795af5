import Verif.Props.PassSafe
import Verif.Props.Fill
/-
C92: a pipeline of lane-wise operations computes the scalar program it stands
for, however it is nested.
-/
namespace Faster
open Res SIMDSized SIMDIterable SIMDIterator

/-- A lane-wise pipeline `x` and the list of scalars it stands for: slices and
strides stand for their elements, a map with a lane-wise closure for the mapped
list, a map of a zip with a lane-wise closure for the mapped list of rows. -/
inductive Lanewise (c : Cfg) : (I α : Type) → (w : Nat) → (sz : SIMDSized I) →
    (it : SIMDIterator I α w) → (pk : Packable α) → I → List α → Prop where
  | source {I α : Type} {w : Nat} {sz : SIMDSized I} {it : SIMDIterator I α w}
      {arr : SIMDArray I α w} [pk : Packable α] {x : I} {l : List α} :
    Source c I α w sz it arr x l → 0 < Packable.size α → w * Packable.size α < c.usize →
    Lanewise c I α w sz it pk x l
  | map {I α β σ : Type} {w : Nat} {sz : SIMDSized I} {it : SIMDIterator I α w} {pk : Packable α}
      [pk' : Packable β] {x : I} {l : List α} (st : σ) (f : FnMut σ (Vector α w) (Vector β w))
      (g : α → β) :
    Lanewise c I α w sz it pk x l → (∀ st v, f st v = ok (v.map g, st)) →
    Packable.size α = Packable.size β →
    Lanewise c (SIMDMap I σ α w β w) β w inferInstance inferInstance pk' (simdMap x st f) (l.map g)
  | zipMap {I Q α γ δ β σ : Type} {w : Nat} {sz : SIMDSized I} {it : SIMDIterator I α w}
      {arr : SIMDArray I α w} [Packable α] {zr : ZipRest Q γ} {pack : Vector δ w → γ}
      [pk' : Packable β] {x : I} {r : Q} {l : List α} {rows : List δ} {z : Zip I Q} (st : σ)
      (f : FnMut σ (Vector α w × γ) (Vector β w)) (g : α × δ → β) :
    Source c I α w sz it arr x l → SourceRest c l.length w Q γ δ zr pack r rows →
    zip c x r = ok z →
    (∀ st (v : Vector (α × δ) w), f st (v.map Prod.fst, pack (v.map Prod.snd)) = ok (v.map g, st)) →
    Packable.size α = Packable.size β → 0 < Packable.size β → w * Packable.size β < c.usize →
    Lanewise c (SIMDZipMap (Zip I Q) σ (Vector α w × γ) β w) β w inferInstance inferInstance pk'
      (zsimdMap z st f) ((l.zip rows).map g)

variable {c : Cfg}

theorem mapRun_pure' {σ β γ : Type} {f : FnMut σ β γ} {g : β → γ} (hf : ∀ st v, f st v = ok (g v, st))
    (st : σ) (vs : List β) : mapRun f st vs = (vs.map g, ok st) := by
  induction vs with
  | nil => rfl
  | cons v vs ih => simp only [mapRun, hf, ih, List.map_cons]

theorem tailFrom_map {α β : Type} {w : Nat} (hw : 0 < w) (g : α → β) (d : Vector α w) (l : List α)
    {n : Nat} (h : Driver.count w l n) :
    tailFrom (d.map g) (l.map g) n = (tailFrom d l n).map fun q => (q.1.map g, q.2) := by
  obtain ⟨-, h2, h3, -⟩ := Driver.count_cases hw h
  simp only [tailFrom, List.length_map]
  split
  · rw [← List.map_drop, padFront_map _ _ _ (by simp; omega)]
    rfl
  · rfl

theorem count_map {α β : Type} {w : Nat} (g : α → β) {l : List α} {n : Nat}
    (h : Driver.count w l n) : Driver.count w (l.map g) n := by
  simpa [Driver.count] using h

/-- A lane-wise pipeline delivers the windows of its list. -/
theorem lanewise_emits {I α : Type} {w : Nat} {sz : SIMDSized I} {it : SIMDIterator I α w}
    {pk : Packable α} {x : I} {l : List α} (h : Lanewise c I α w sz it pk x l) :
    0 < w ∧ 0 < Packable.size α ∧ w * Packable.size α < c.usize ∧ l.length + w < c.usize ∧
    ∃ (d : Vector α w) (n : Nat) (x' : I), Driver.count w l n ∧
      Emits c x ((fullWindows w l).take n) (ok (tailFrom d l n, x')) ∧
      len c x = ok (l.length / w) ∧ len c x' = ok (l.length / w) := by
  induction h with
  | source h hs hu =>
    obtain ⟨hw, hl, d, S, more, -, hd, rfl⟩ := source_spec h
    obtain ⟨n, hc, he⟩ := hd.emits hw
    exact ⟨hw, hs, hu, hl, d, n, _, hc, he, hd.len 0, hd.len _⟩
  | @map I α β σ w sz it pk pk' x l st f g _ hf hsz ih =>
    obtain ⟨hw, hs, hu, hl, d, n, x', hc, he, hL, hL'⟩ := ih
    have hn : ∀ p k, tailFrom d l n = some (p, k) → k * Packable.size α < c.usize := by
      intro p k e
      exact Nat.lt_of_le_of_lt (Nat.mul_le_mul_right _ (tailFrom_some e)) hu
    have hm := simdMap_emits f he (by omega) hn st
    refine ⟨hw, by omega, by rw [← hsz]; exact hu, by simpa using hl, d.map g, n, ⟨x', st, f⟩,
      count_map g hc, ?_, ?_, ?_⟩
    · rw [tailFrom_map hw g d l hc, fullWindows_map, ← List.map_take]
      rw [mapRun_pure' hf] at hm
      simp only [ok_bind] at hm
      have e : mapTail f x' st (tailFrom d l n) =
          ok ((tailFrom d l n).map fun q => (q.1.map g, q.2), ⟨x', st, f⟩) := by
        cases tailFrom d l n with
        | none => rfl
        | some q =>
          simp only [mapTail, hf, ok_bind, Option.map_some]
          rw [← hsz, Nat.mul_div_cancel _ hs]
      rw [e] at hm
      exact hm
    · rw [List.length_map]; exact hL
    · rw [List.length_map]; exact hL'
  | @zipMap I Q α γ δ β σ w sz it arr _ zr pack pk' x r l rows z st f g h hrest hz hf hsz hs hu =>
    obtain ⟨hw, hum, -⟩ := source_spec h
    obtain ⟨lr, dv, S, more, rfl, hd, hrep, rfl⟩ := zip_rows h hrest hz
    have hrl : (l.zip rows).length = l.length := by simp [(sourceRest_spec hrest).1]
    generalize l.zip rows = rows at *
    obtain ⟨n, hc, he⟩ := zip_emits hd hw hrep (by omega)
    have hlen : ∀ p, SIMDZippedIterator.len c (⟨S p, r⟩ : Zip I Q) = ok (rows.length / w) := by
      intro p
      have := hd.len p
      simp only [List.length_map] at this
      exact this
    have hn : ∀ p k, (tailFrom dv rows n).map (fun q => (packRow Q q.1, q.2)) = some (p, k) →
        k ≤ w := by
      intro p k e
      cases ht : tailFrom dv rows n with
      | none => rw [ht] at e; cases e
      | some q =>
        rw [ht] at e
        simp only [Option.map_some, Option.some.injEq, Prod.mk.injEq] at e
        rw [← e.2]
        exact tailFrom_some ht
    have hm := zipMap_emits f he hs (fun p k e => by
      have h2 : k * Packable.size β ≤ w * Packable.size β := Nat.mul_le_mul_right _ (hn p k e)
      rw [show SIMDZippedIterator.size (⟨S rows.length, r⟩ : Zip I Q) = Packable.size α from rfl, hsz]
      omega) st
    refine ⟨hw, hs, hu, by rw [List.length_map]; omega, dv.map g, n, ⟨⟨S rows.length, r⟩, st, f⟩,
      count_map g hc, ?_, ?_, ?_⟩
    · rw [tailFrom_map hw g dv rows hc, fullWindows_map, ← List.map_take]
      have key : ∀ (us : List (Vector (α × δ) w)), mapRun f st (us.map (packRow Q)) =
          (us.map (Vector.map g), ok st) := by
        intro us
        induction us with
        | nil => rfl
        | cons v vs ih =>
          simp only [List.map_cons, mapRun, packRow, hf]
          rw [ih]
      rw [key] at hm
      simp only [ok_bind] at hm
      have e : zmapTail f (SIMDZippedIterator.size (⟨S rows.length, r⟩ : Zip I Q))
          (⟨S rows.length, r⟩ : Zip I Q) st ((tailFrom dv rows n).map fun q => (packRow Q q.1, q.2)) =
          ok ((tailFrom dv rows n).map fun q => (q.1.map g, q.2), ⟨⟨S rows.length, r⟩, st, f⟩) := by
        cases tailFrom dv rows n with
        | none => rfl
        | some q =>
          simp only [Option.map_some, zmapTail, packRow, hf, ok_bind]
          rw [show SIMDZippedIterator.size (⟨S rows.length, r⟩ : Zip I Q) = Packable.size α from rfl,
            hsz, Nat.mul_div_cancel _ hs]
      rw [e] at hm
      exact hm
    · rw [List.length_map]; exact hlen 0
    · rw [List.length_map]; exact hlen _

theorem lanes_tailFrom {α : Type} {w : Nat} (hw : 0 < w) (d : Vector α w) (l : List α) {n : Nat}
    (h : Driver.count w l n) : lanes ((fullWindows w l).take n) ++
      ((tailFrom d l n).map fun q => q.1.toList.drop q.2).getD [] = l := by
  have h1 := unpad_calls hw d l
  rw [← withTail_tailFrom hw d l h, ← padOf_tailFrom hw d l h] at h1
  conv => rhs; rw [← h1]
  cases tailFrom d l n with
  | none => simp [withTail, padOf, unpad_zero]
  | some q => simp [withTail, padOf, unpad_concat]

section
variable {I α : Type} {w : Nat} {sz : SIMDSized I} {it : SIMDIterator I α w} {pk : Packable α} {x : I}
  {l : List α}

/-- **C92**, `scalar_collect`: the list the pipeline stands for. -/
theorem C92_collect (h : Lanewise c I α w sz it pk x l) (fuel : Nat) (hfuel : l.length / w < fuel) :
    ∃ x', scalarCollect c fuel x = ok (x', l.map some) := by
  obtain ⟨hw, -, -, hl, d, n, x', hc, he, hL, hL'⟩ := lanewise_emits h
  obtain ⟨h1, h2, h3⟩ := count_len hw hc
  have hv : ((fullWindows w l).take n).length = n := by
    rw [List.length_take, fullWindows_length]; omega
  have h5 := Nat.div_mul_le_self l.length w
  refine ⟨x', ?_⟩
  rw [scalarCollect_emits he fuel (by omega) hw hL (by omega) (by rw [Nat.succ_mul]; omega)]
  · simp only [ok_bind, lanes_tailFrom hw d l hc]
  · intro p k it' e
    simp only [ok.injEq, Prod.mk.injEq] at e
    exact tailFrom_some e.1
  · intro it' e
    simp only [ok.injEq, Prod.mk.injEq] at e
    rw [← e.2, hL', hv, h3]
    have := e.1
    unfold tailFrom at this
    split at this
    · cases this
    · omega

/-- **C92**, `scalar_fill` into a buffer which is long enough: the list, and the
rest of the buffer as it was. -/
theorem C92_fill (h : Lanewise c I α w sz it pk x l) (fuel : Nat) (hfuel : l.length / w < fuel)
    (buf : List α) (hb : l.length ≤ buf.length) :
    ∃ x', scalarFill c fuel x buf = ok (x', l ++ buf.drop l.length) := by
  obtain ⟨hw, -, -, hl, d, n, x', hc, he, hL, hL'⟩ := lanewise_emits h
  obtain ⟨h1, h2, h3⟩ := count_len hw hc
  obtain ⟨-, h6, h7, -⟩ := Driver.count_cases hw hc
  have hv : ((fullWindows w l).take n).length = n := by
    rw [List.length_take, fullWindows_length]; omega
  refine ⟨x', ?_⟩
  rw [scalarFill_emits he fuel buf (by omega) hw (by rw [hv]; omega) (by rw [hv]; omega)]
  · simp only [ok_bind, lanes_tailFrom hw d l hc, splice_zero]
  · intro p k it' e
    simp only [ok.injEq, Prod.mk.injEq] at e
    have := e.1
    unfold tailFrom at this
    split at this
    · simp only [Option.some.injEq, Prod.mk.injEq] at this
      rw [hv]
      omega
    · cases this

/-- **C92**, consumers with any closure: it is called on the groups of `w` of the
list in order, then on the rest behind lanes of some default. -/
theorem C92_calls (h : Lanewise c I α w sz it pk x l) : ∃ (d : Vector α w) (x' : I),
    ∀ fuel, l.length / w < fuel →
    (∀ (A σ : Type) (a : A) (st : σ) (f : σ → A → Vector α w → Res (A × σ)),
      simdReduce c fuel x a st f = (do
        let (acc, st') ← (calls w d l).foldlM (fun (acc, st) v => f st acc v) (a, st)
        ok (x', acc, st'))) ∧
    (∀ (σ : Type) (st : σ) (f : FnMut σ (Vector α w) Unit),
      simdDoEach c fuel x st f = (do
        let (_, st') ← callAll f st (calls w d l)
        ok (x', st'))) := by
  obtain ⟨hw, -, -, hl, d, n, x', hc, he, hL, hL'⟩ := lanewise_emits h
  obtain ⟨h1, h2, h3⟩ := count_len hw hc
  have hv : ((fullWindows w l).take n).length = n := by
    rw [List.length_take, fullWindows_length]; omega
  refine ⟨d, x', fun fuel hf => ⟨?_, ?_⟩⟩
  · intro A σ a st f
    rw [simdReduce_emits f he fuel a st (by omega), withTail_tailFrom hw d l hc]
  · intro σ st f
    rw [simdDoEach_emits f he fuel st (by omega), withTail_tailFrom hw d l hc]

end

/-- **C92**: two lane-wise pipelines which stand for the same list collect to the
same result, whatever their nesting, vector width and build. -/
theorem C92_same {c c' : Cfg} {I J α : Type} {w w' : Nat} {sz : SIMDSized I}
    {it : SIMDIterator I α w} {pk : Packable α} {sz' : SIMDSized J} {it' : SIMDIterator J α w'}
    {x : I} {y : J} {l : List α}
    (h : Lanewise c I α w sz it pk x l) (h' : Lanewise c' J α w' sz' it' pk y l)
    (fuel fuel' : Nat) (hfuel : l.length < fuel) (hfuel' : l.length < fuel') :
    ∃ x' y' out, scalarCollect c fuel x = ok (x', out) ∧ scalarCollect c' fuel' y = ok (y', out) := by
  obtain ⟨x', e⟩ := C92_collect h fuel (Nat.lt_of_le_of_lt (Nat.div_le_self _ _) hfuel)
  obtain ⟨y', e'⟩ := C92_collect h' fuel' (Nat.lt_of_le_of_lt (Nat.div_le_self _ _) hfuel')
  exact ⟨x', y', _, e, e'⟩

/-- `(a, b.stride(2).0).zip().simd_map(|(x, y)| x + y).simd_map(|v| v + 1)` in a
release build stands for `[3 + 1 + 1, …]`. -/
example : ∃ (I : Type) (sz : SIMDSized I) (it : SIMDIterator I (BitVec 8) 2) (x : I),
    Lanewise release64 I (BitVec 8) 2 sz it inferInstance x [4, 10, 9] := by
  let a := simdIter [1#8, 2, 3] #v[0, 0]
  let s : PackedStride (Slice (BitVec 8) 2) (BitVec 8) 2 :=
    strideAt ⟨[2, 7, 7, 7, 5, 7]⟩ 2 0 #v[0, 0]
  have ha : Source release64 _ (BitVec 8) 2 _ _ _ a [1, 2, 3] :=
    .slice [1#8, 2, 3] #v[0, 0] (by decide) (by decide)
  have hs : Source release64 _ (BitVec 8) 2 _ _ _ s [2, 7, 5] :=
    .stride [2#8, 7, 7, 7, 5, 7] 2 0 #v[0, 0] (by decide) (by decide) (by decide)
  have hz : zip release64 a (s, ()) = ok ⟨a, (s, ())⟩ := by
    simp [zip, a, s, ZipRest.lenDiffers, SIMDIterable.len, SIMDSized.scalarLen, simdIter,
      strideAt, udiv, vectorLen]
  exact ⟨_, _, _, _, .map () (fun _ v => ok (v.map (· + 1), ())) (· + 1)
    (.zipMap () (fun _ v => ok (Vector.zipWith (· + ·) v.1 v.2.1, ())) (fun t => t.1 + t.2.1)
      ha (.cons hs rfl .nil) hz (by intro st v; congr 2; ext i hi; simp) rfl (by decide) (by decide))
    (fun _ _ => rfl) rfl⟩

end Faster
