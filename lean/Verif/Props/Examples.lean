import Verif.Props.ZipLanes
import Verif.Props.Pipeline
import Verif.Props.Fill
/-
C101, C102: programs of examples/main.rs and tests/zip.rs.
-/
namespace Faster
open Res SIMDSized SIMDIterable SIMDIterator

/-! ### C102 -/

/-- **C102.** The last lane of call `q` of a pass is the last element of group `q`: the
padding never reaches it. -/
theorem C102_last_lane {α : Type} {w : Nat} (hw : 0 < w) (d : Vector α w) (data : List α) (q : Nat)
    (v : Vector α w) (hv : (calls w d data)[q]? = some v) :
    data[min ((q + 1) * w) data.length - 1]? = some v[w - 1] := by
  have hm := Nat.mod_lt data.length hw
  have hdm := Nat.div_add_mod data.length w
  have hl := leftover_length w data
  have h3 : (q + 1) * w = q * w + w := Nat.succ_mul ..
  rw [calls, List.getElem?_append, fullWindows_length] at hv
  split at hv
  · next hlt =>
    have h1 : (q + 1) * w ≤ data.length / w * w := Nat.mul_le_mul_right _ hlt
    have h2 := Nat.div_mul_le_self data.length w
    rw [List.getElem?_eq_getElem (by rw [fullWindows_length]; exact hlt), Option.some.injEq] at hv
    rw [Nat.min_eq_left (by omega), h3, List.getElem?_eq_getElem (by omega), ← hv]
    simp only [fullWindows, List.getElem_ofFn, Vector.getElem_ofFn]
    congr 2
    omega
  · next hlt =>
    split at hv
    · simp at hv
    · next hz =>
      obtain ⟨hq, hv⟩ : q = data.length / w ∧ padFront d (leftover w data) = v := by
        cases h : q - data.length / w with
        | zero => rw [h] at hv; exact ⟨by omega, by simpa using hv⟩
        | succ k => rw [h] at hv; simp at hv
      rw [Nat.mul_comm, ← hq] at hdm
      rw [Nat.min_eq_right (by omega), ← hv, padFront, Vector.getElem_ofFn]
      have h4 : (leftover w data)[w - 1 - (w - (leftover w data).length)]? = data[data.length - 1]? := by
        rw [leftover, List.getElem?_drop, ← hq]
        congr 1
        have : (data.drop (data.length / w * w)).length = data.length % w := hl
        rw [hq, this, ← hq]
        omega
      rw [h4, List.getElem?_eq_getElem (by omega), Option.filter_some_pos (by simp; omega)]
      rfl

example : calls 2 #v[0, 0] [1, 2, 3] = [#v[1, 2], #v[0, 3]] := by decide +kernel
example : calls 4 #v[0, 0, 0, 0] [1, 2] = [#v[0, 0, 1, 2]] := by decide +kernel

theorem callAll_checked {β γ : Type} (f : FnMut Unit β γ) (p : β → Bool) (G : β → γ)
    (h : ∀ v, f () v = if p v then ok (G v, ()) else panic) (vs : List β) :
    callAll f () vs = if vs.all p then ok (vs.map G, ()) else panic := by
  induction vs with
  | nil => rfl
  | cons v vs ih =>
    simp only [callAll, h, ih, List.all_cons, List.map_cons]
    cases p v
    · rfl
    · cases vs.all p <;> rfl

/-- A closure which checks the last lanes of its vectors and then computes `g` on every
tuple of lanes. -/
def checkedFn {α β : Type} {w n : Nat} (hw : 0 < w) (chk : List α → Bool) (g : List α → β) :
    FnMut Unit (Vector α w × PowT (Vector α w) n) (Vector β w) := fun _ v => do
  assert (chk ((v.1 :: PowT.toList v.2).map (·[w - 1])))
  ok (laneFn g v, ())

/-- **C102**, zips of `n + 1` strides: such a program succeeds exactly if the check holds
for the last element group of every vector, and then returns `g` of all element groups. -/
theorem C102_checked {α β : Type} [Packable α] [Packable β] {w : Nat} (c : Cfg) (n : Nat)
    (l : List α) (D : Nat → Vector α w)
    (hw : 0 < w) (hu : l.length + (n + 1) * (w + 1) < c.usize) (fuel : Nat)
    (chk : List α → Bool) (g : List α → β)
    (hs : 0 < Packable.size β) (hsize : Packable.size α = Packable.size β)
    (hvec : w * Packable.size α < c.usize) (hfuel : l.length / (n + 1) / w < fuel) :
    (do
      let z ← zip c (strideAt (⟨l⟩ : Slice α w) (n + 1) 0 (D 0))
        (PowT.mk (fun k => strideAt (⟨l⟩ : Slice α w) (n + 1) k (D k)) n 1)
      let (_, out) ← scalarCollect c fuel (zsimdMap z () (checkedFn (n := n) hw chk g))
      ok out) =
      if ∀ q, q < ((chunksExact (n + 1) l).length + w - 1) / w →
        ((chunksExact (n + 1) l)[min ((q + 1) * w) (chunksExact (n + 1) l).length - 1]?).all chk
      then ok (((chunksExact (n + 1) l).map g).map some) else panic := by
  have hle := Nat.div_le_self l.length (n + 1)
  have hw1 : w + 1 ≤ (n + 1) * (w + 1) := Nat.le_mul_of_pos_left _ (by omega)
  let F : Nat → PackedStride (Slice α w) α w := fun k => strideAt (⟨l⟩ : Slice α w) (n + 1) k (D k)
  let f : Nat → Nat → α := fun k i => l.getD (k + (n + 1) * i) Packable.zero
  let N := l.length / (n + 1)
  let rl : α × PowT α n → List α := fun t => t.1 :: PowT.toList t.2
  let rows : List (α × PowT α n) := (List.range N).map fun i => (f 0 i, PowT.mk (fun m => f m i) n 1)
  let dv : Vector (α × PowT α n) w :=
    Vector.ofFn (n := w) fun j => ((D 0)[j], PowT.mk (fun m => (D m)[j]) n 1)
  have e : ∀ k (hk : k < n + 1), (List.range N).map (f k) = strided (n + 1) k l hk := by
    intro k hk
    apply List.ext_getElem
    · simp [N]
    · intro i h1 h2
      have h3 := strided_index hk (show i < l.length / (n + 1) by simpa using h1)
      simp [strided_getElem, f, h3]
  have hrl : rows.length = N := by simp [rows]
  have hchunks : rows.map rl = chunksExact (n + 1) l := by
    apply List.ext_getElem
    · simp [rows, chunksExact, N]
    · intro i h1 h2
      have hi : i < l.length / (n + 1) := by simpa [rows, N] using h1
      have h1 : (n + 1) * (i + 1) ≤ (n + 1) * (l.length / (n + 1)) := Nat.mul_le_mul_left _ hi
      have h2 := Nat.mul_div_le l.length (n + 1)
      have h3 : i * (n + 1) = (n + 1) * i := Nat.mul_comm ..
      rw [Nat.mul_succ] at h1
      simp only [rows, chunksExact, List.getElem_map, List.getElem_range, rl, PowT.toList_mk]
      rw [show f 0 i :: (List.range' 1 n).map (fun m => f m i) =
        (List.range (n + 1)).map fun m => f m i by
          simp [List.range_eq_range', List.range'_succ]]
      apply List.ext_getElem
      · simp; omega
      · intro k h4 h5
        have h6 : k < n + 1 := by simpa using h4
        simp only [List.getElem_map, List.getElem_range, List.getElem_take, List.getElem_drop, f]
        rw [List.getD_eq_getElem?_getD, List.getElem?_eq_getElem (by omega), Option.getD_some]
        congr 1
        omega
  have hrep := PowT.rep (c := c) F f D N n 1 (fun k _ hk => by
    rw [e k (by omega)]; exact repIter_strideAt c l (by omega) (D k) hw hu)
  have hN1 := Nat.div_mul_le_self N w
  have hN2 : N ≤ l.length := hle
  have key := zip_collect_any (c := c) (S := fun p => (⟨⟨l⟩, 0 + (n + 1) * p, 0, n + 1, D 0⟩ :
      PackedStride (Slice α w) α w))
    (r := PowT.mk F n 1) (more := _) (rows := rows) (dv := dv)
    (by
      rw [List.map_map, show dv.map Prod.fst = D 0 by ext j hj; simp [dv],
        show (Prod.fst ∘ fun i => (f 0 i, PowT.mk (fun m => f m i) n 1)) = f 0 from rfl,
        e 0 (by omega)]
      exact stride_driver (represents_slice c l) (Nat.succ_pos n) (D 0) hw hu) hw
    (by
      rw [List.map_map, show dv.map Prod.snd =
          Vector.ofFn (n := w) fun j => PowT.mk (fun m => (D m)[j]) n 1 by
            apply Vector.ext; intro j hj; simp [dv]]
      exact hrep)
    (by rw [hrl]; omega) fuel () (checkedFn hw chk g) hw hs (by rw [hsize])
    (by rw [hrl, Nat.succ_mul]; omega) hvec (by rw [hrl]; exact hfuel)
  have hlane : ∀ (v : Vector (α × PowT α n) w) (j : Nat) (hj : j < w),
      ((packRow (PowT (PackedStride (Slice α w) α w) n) v).1 ::
        PowT.toList (packRow (PowT (PackedStride (Slice α w) α w) n) v).2).map (·[j]) = rl v[j] := by
    intro v j hj
    have := PowT.pack_lane (T := PackedStride (Slice α w) α w) j hj n (v.map Prod.snd)
    rw [Vector.getElem_map] at this
    simp only [packRow, List.map_cons, Vector.getElem_map, rl]
    rw [this]
  rw [callAll_checked (checkedFn hw chk g)
    (fun v => chk ((v.1 :: PowT.toList v.2).map (·[w - 1]))) (laneFn g)
    (by intro v; simp only [checkedFn, assert]; split <;> rfl)] at key
  rw [← bind_assoc]
  refine (congrArg (· >>= fun p => ok p.2) key).trans ?_
  have hall : (((calls w dv rows).map (packRow (PowT (PackedStride (Slice α w) α w) n))).all
      fun v => chk ((v.1 :: PowT.toList v.2).map (·[w - 1]))) = true ↔
      ∀ q, q < ((chunksExact (n + 1) l).length + w - 1) / w →
        ((chunksExact (n + 1) l)[min ((q + 1) * w) (chunksExact (n + 1) l).length - 1]?).all chk := by
    rw [← hchunks, List.length_map, ← calls_length hw dv rows, List.all_map, List.all_eq_true]
    simp only [Function.comp, hlane, List.getElem?_map, Option.all_map]
    constructor
    · intro h q hq
      have h1 := C102_last_lane hw dv rows q _ (List.getElem?_eq_getElem hq)
      rw [h1]
      exact h _ (List.getElem_mem hq)
    · intro h v hv
      obtain ⟨q, hq, rfl⟩ := List.mem_iff_getElem.mp hv
      have h1 := C102_last_lane hw dv rows q _ (List.getElem?_eq_getElem hq)
      have := h q hq
      rw [h1] at this
      exact this
  by_cases hc : ∀ q, q < ((chunksExact (n + 1) l).length + w - 1) / w →
        ((chunksExact (n + 1) l)[min ((q + 1) * w) (chunksExact (n + 1) l).length - 1]?).all chk
  · rw [if_pos hc, if_pos (hall.mpr hc)]
    simp only [ok_bind]
    rw [← hsize, Nat.mul_div_cancel _ (by omega), List.map_map,
      show laneFn g ∘ packRow (PowT (PackedStride (Slice α w) α w) n) = Vector.map (g ∘ rl) by
        funext v
        apply Vector.ext
        intro j hj
        simp only [Function.comp, laneFn, Vector.getElem_ofFn, Vector.getElem_map]
        rw [← hlane v j hj]
        rfl, unpad_map, unpad_calls hw, ← hchunks]
    simp only [List.map_map]
  · rw [if_neg hc, if_neg (fun h => hc (hall.mp h))]
    rfl

theorem assert_and {β : Type} (a b : Bool) (k : Res β) :
    (assert a >>= fun _ => assert b >>= fun _ => k) = assert (a && b) >>= fun _ => k := by
  cases a <;> rfl

/-- The determinant of the closures in tests/zip.rs. -/
def det9 {α : Type} (mul add sub : α → α → α) (m : Nat → α) : α :=
  sub (sub (sub (add (add (mul (mul (m 0) (m 4)) (m 8)) (mul (mul (m 1) (m 5)) (m 6)))
    (mul (mul (m 2) (m 3)) (m 7))) (mul (mul (m 2) (m 4)) (m 6)))
    (mul (mul (m 1) (m 3)) (m 8))) (mul (mul (m 0) (m 5)) (m 7))

/-- **C102**, the test program on any slice: it returns the determinants of all complete
matrices if the last matrix of every vector is `p 0, …, p 8`, and fails otherwise. -/
theorem C102_program {α : Type} [BEq α] [Packable α] {w : Nat} (p : Nat → α)
    (mul add sub : α → α → α) (z : α) (c : Cfg) (fuel : Nat) (l : List α)
    (hw : 0 < w) (hs : 0 < Packable.size α) (hu : l.length + 9 * (w + 1) < c.usize)
    (hvec : w * Packable.size α < c.usize) (hfuel : l.length / 9 / w < fuel) :
    zippedStrideTest w p mul add sub z c fuel l =
      if ∀ q, q < ((chunksExact 9 l).length + w - 1) / w →
        ((chunksExact 9 l)[min ((q + 1) * w) (chunksExact 9 l).length - 1]?).all fun m =>
          m == [p 0, p 1, p 2, p 3, p 4, p 5, p 6, p 7, p 8]
      then ok ((chunksExact 9 l).map fun m => some (det9 mul add sub fun k => m.getD k z))
      else panic := by
  have key := C102_checked (w := w) c 8 l (fun _ => Packed.splat z) hw (by omega) fuel
    (fun m => m == [p 0, p 1, p 2, p 3, p 4, p 5, p 6, p 7, p 8])
    (fun m => det9 mul add sub fun k => m.getD k z) hs rfl hvec hfuel
  have hfn : (determinantTest p mul add sub c : FnMut Unit (Vector α w × Vector α w × Vector α w ×
      Vector α w × Vector α w × Vector α w × Vector α w × Vector α w × Vector α w × Unit) _) =
      checkedFn (n := 8) hw (fun m => m == [p 0, p 1, p 2, p 3, p 4, p 5, p 6, p 7, p 8])
        (fun m => det9 mul add sub fun k => m.getD k z) := by
    funext st v
    obtain ⟨a, b, d, e, f, g, h, i, j, u⟩ := v
    have hsub : usub c w 1 = ok (w - 1) := usub_ok (by omega)
    have hx : ∀ v : Vector α w, Packed.extract v (w - 1) = ok (v[w - 1]'(by omega)) := by
      intro v; simp [Packed.extract, hw]
    have hl : (((a, b, d, e, f, g, h, i, j, u) : Vector α w × PowT (Vector α w) 8).1 ::
        PowT.toList ((a, b, d, e, f, g, h, i, j, u) : Vector α w × PowT (Vector α w) 8).2) =
        [a, b, d, e, f, g, h, i, j] := rfl
    have hdet : laneFn (w := w) (n := 8) (fun m => det9 mul add sub fun k => m.getD k z)
        (a, b, d, e, f, g, h, i, j, u) =
        Vector.zipWith sub (Vector.zipWith sub (Vector.zipWith sub (Vector.zipWith add
          (Vector.zipWith add (Vector.zipWith mul (Vector.zipWith mul a f) j)
            (Vector.zipWith mul (Vector.zipWith mul b g) h))
          (Vector.zipWith mul (Vector.zipWith mul d e) i))
          (Vector.zipWith mul (Vector.zipWith mul d f) h))
          (Vector.zipWith mul (Vector.zipWith mul b e) j))
          (Vector.zipWith mul (Vector.zipWith mul a g) i) := by
      apply Vector.ext
      intro k hk
      simp [laneFn, hl, det9]
    have hr : checkedFn (n := 8) hw (fun m => m == [p 0, p 1, p 2, p 3, p 4, p 5, p 6, p 7, p 8])
        (fun m => det9 mul add sub fun k => m.getD k z) st (a, b, d, e, f, g, h, i, j, u) =
        (assert (a[w - 1] == p 0 && (b[w - 1] == p 1 && (d[w - 1] == p 2 && (e[w - 1] == p 3 &&
          (f[w - 1] == p 4 && (g[w - 1] == p 5 && (h[w - 1] == p 6 && (i[w - 1] == p 7 &&
          (j[w - 1] == p 8 && true))))))))) >>= fun _ =>
        ok (laneFn (w := w) (n := 8) (fun m => det9 mul add sub fun k => m.getD k z)
          (a, b, d, e, f, g, h, i, j, u), ())) := rfl
    refine Eq.trans ?_ hr.symm
    rw [hdet]
    simp only [determinantTest, hsub, hx, ok_bind, assert_and, Bool.and_true]
  unfold zippedStrideTest
  rw [hfn]
  refine key.trans ?_
  simp only [List.map_map]
  rfl

/-- `[…].iter().cycle().take(9 * N)` in tests/zip.rs, for nine given elements. -/
def cycled {α : Type} (p : Nat → α) (N : Nat) : List α := (List.range (9 * N)).map fun i => p (i % 9)

theorem chunks_cycled {α : Type} (p : Nat → α) (N : Nat) :
    chunksExact 9 (cycled p N) = List.replicate N [p 0, p 1, p 2, p 3, p 4, p 5, p 6, p 7, p 8] := by
  apply List.ext_getElem
  · simp [chunksExact, cycled]
  · intro i h1 h2
    have hi : i < N := by simpa using h2
    simp only [chunksExact, List.getElem_map, List.getElem_range, List.getElem_replicate]
    apply List.ext_getElem
    · simp [cycled]; omega
    · intro k h3 h4
      have hk : k < 9 := by simpa using h4
      simp only [List.getElem_take, List.getElem_drop, cycled, List.getElem_map, List.getElem_range,
        show (i * 9 + k) % 9 = k by omega]
      obtain rfl | rfl | rfl | rfl | rfl | rfl | rfl | rfl | rfl : k = 0 ∨ k = 1 ∨ k = 2 ∨ k = 3 ∨
        k = 4 ∨ k = 5 ∨ k = 6 ∨ k = 7 ∨ k = 8 := by omega
      all_goals rfl

/-- **C102**: with any number of copies of one matrix the assertions of the test hold, and
all results are the determinant of that matrix. -/
theorem C102_cycled {α : Type} [BEq α] [ReflBEq α] [Packable α] {w : Nat} (p : Nat → α)
    (mul add sub : α → α → α) (z : α) (c : Cfg) (fuel N : Nat)
    (hw : 0 < w) (hs : 0 < Packable.size α) (hu : 9 * N + 9 * (w + 1) < c.usize)
    (hvec : w * Packable.size α < c.usize) (hfuel : N / w < fuel) :
    zippedStrideTest w p mul add sub z c fuel (cycled p N) =
      ok (List.replicate N (some (det9 mul add sub p))) := by
  have hl : (cycled p N).length = 9 * N := by simp [cycled]
  rw [C102_program p mul add sub z c fuel _ hw hs (by omega) hvec (by rw [hl]; simpa using hfuel),
    if_pos]
  · rw [chunks_cycled, List.map_replicate]
    rfl
  · intro q _
    rw [chunks_cycled, List.getElem?_replicate]
    split <;> simp

/-- **C102**, the test: one hundred (or any number of) times 1, …, 9 in `i16` gives zeros. -/
theorem C102_test (c : Cfg) (fuel N w : Nat) (hw : 0 < w) (hu : 9 * N + 9 * (w + 1) < c.usize)
    (hfuel : N / w < fuel) :
    zippedStrideTest w (fun k => BitVec.ofNat 16 (k + 1)) (· * ·) (· + ·) (· - ·) 0#16 c fuel
      (cycled (fun k => BitVec.ofNat 16 (k + 1)) N) = ok (List.replicate N (some 0#16)) := by
  rw [C102_cycled _ _ _ _ _ c fuel N hw (by decide) hu (by simp only [Packable.size]; omega) hfuel]
  congr 1

/-- One wrong matrix at the end of a vector makes the test fail, elsewhere not. -/
example : let p := fun k => BitVec.ofNat 16 (k + 1)
    let bad := cycled (fun _ => 0#16) 1
    zippedStrideTest 2 p (· * ·) (· + ·) (· - ·) 0#16 debug64 9 (cycled p 2 ++ bad ++ cycled p 1) =
      ok (List.replicate 4 (some 0#16)) ∧
    zippedStrideTest 2 p (· * ·) (· + ·) (· - ·) 0#16 debug64 9 (cycled p 2 ++ bad) = panic := by
  decide +kernel

/-! ### C101 -/

/-- **C101**, `lots_of_84s`: `9 * |x| - 6` modulo 2^8 for every element, in every version of
`abs` of `i8` vectors. -/
theorem C101_abs (r : AbsRow) (hr : r ∈ absRows ++ absRowsUnknown) (hk : r.kind = .i) (hs : r.size = 1)
    (opt : Bool) (c : Cfg) (fuel : Nat) (data : List (BitVec 8))
    (hlen : data.length + r.width < c.usize) (hfuel : data.length / r.width < fuel) :
    exampleAbs (w := r.width) (absOf opt r) c fuel data =
      ok (data.map fun x => some (BitVec.ofInt 8 (9 * (x.toInt.natAbs : Int) - 6))) := by
  have hw : 0 < r.width ∧ r.width ≤ 64 := by
    have : ∀ r ∈ absRows ++ absRowsUnknown, 0 < r.width ∧ r.width ≤ 64 := by decide +kernel
    exact this r hr
  have habs : ∀ v : Vector (BitVec 8) r.width,
      absOf opt r v = ok (v.map fun x => BitVec.ofInt 8 (x.toInt.natAbs : Int)) := by
    have gen : ∀ {n : Nat} (hn : n = 8 * r.size) (v : Vector (BitVec n) r.width),
        ∃ o, absOf opt r v = ok o ∧ IsAbs v o := by
      intro n hn v
      subst hn
      unfold absOf
      split
      · rename_i mm hm
        rcases List.mem_append.mp hr with h | h
        · exact C44_int_optimized r h hk mm hm v
        · rw [absRowsUnknown_mm r h] at hm; cases hm
      · exact C44_int_fallback r (List.mem_append.mp hr) hk v
    intro v
    obtain ⟨o, h1, h2⟩ := gen (by omega) v
    rw [h1]
    congr 1
    apply Vector.ext
    intro i hi
    have := h2 i hi
    rw [Vector.getElem_map]
    apply BitVec.eq_of_toNat_eq
    rw [BitVec.toNat_ofInt]
    have hlt := (o[i]).isLt
    split at this <;> omega
  have h1 : Lanewise c _ (BitVec 8) r.width _ _ _ (simdIter data (Packed.splat 0#8)) data :=
    .source (.slice data _ hw.1 hlen) (by decide) (by simp only [Packable.size]; omega)
  have h2 := Lanewise.map () (fun _ (v : Vector (BitVec 8) r.width) =>
      (absOf opt r v >>= fun u => ok (u.map fun x => 9#8 * x - 4#8 - 2#8, ())))
    (fun x => 9#8 * BitVec.ofInt 8 (x.toInt.natAbs : Int) - 4#8 - 2#8) h1
    (by
      intro st v
      rw [habs, ok_bind, Vector.map_map]
      rfl) rfl
  have h3 := Lanewise.map () (fun _ (v : Vector (BitVec 8) r.width) => ok (v, ())) id h2
    (by intro st v; simp) rfl
  obtain ⟨x', h4⟩ := C92_collect h3 fuel (by simpa using hfuel)
  refine (congrArg (· >>= fun p => ok p.2) h4).trans ?_
  simp only [ok_bind, List.map_map]
  congr 1
  apply List.map_congr_left
  intro x _
  simp only [Function.comp, Option.some.injEq, id_eq]
  generalize (x.toInt.natAbs : Int) = y
  rw [show 9 * y - 6 = 9 * y + (-4 + -2) by omega, BitVec.ofInt_add, BitVec.ofInt_add, BitVec.ofInt_mul,
    BitVec.sub_eq_add_neg, BitVec.sub_eq_add_neg, BitVec.add_assoc]
  rfl

/-- The example itself: `9 * 10 - 6 = 84`. -/
theorem C101_lots_of_84s (r : AbsRow) (hr : r ∈ absRows ++ absRowsUnknown) (hk : r.kind = .i)
    (hs : r.size = 1) (opt : Bool) (c : Cfg) (fuel N : Nat)
    (hlen : N + r.width < c.usize) (hfuel : N / r.width < fuel) :
    exampleAbs (w := r.width) (absOf opt r) c fuel (List.replicate N (-10#8)) =
      ok (List.replicate N (some 84#8)) := by
  rw [C101_abs r hr hk hs opt c fuel _ (by simpa using hlen) (by simpa using hfuel),
    List.map_replicate]
  congr 2

/-- **C101**, `filled_u8s`: doubled elements, then the rest of the buffer. -/
theorem C101_fill (w : Nat) (c : Cfg) (fuel : Nat) (data buf : List (BitVec 8)) (hw : 0 < w)
    (hlen : data.length + w < c.usize) (hb : data.length ≤ buf.length)
    (hfuel : data.length / w < fuel) :
    exampleFill w c fuel data buf = ok ((data.map fun x => BitVec.ofNat 8 (2 * x.toNat)) ++
      buf.drop data.length) := by
  have := C07_fill c fuel data (Packed.splat 0#8 : Vector (BitVec 8) w) (· * 2#8) buf hw (by decide)
    rfl hlen (by simp only [Packable.size]; omega) hfuel hb
  refine (congrArg (· >>= fun p => ok p.2) this).trans ?_
  rw [ok_bind]
  congr 1
  refine congrArg (· ++ buf.drop data.length) ?_
  apply List.map_congr_left
  intro x _
  apply BitVec.eq_of_toNat_eq
  simp [BitVec.toNat_mul, Nat.mul_comm]

/-- **C101**, `strided`: sums of consecutive pairs; the default 99 does not appear. -/
theorem C101_strided (w : Nat) (c : Cfg) (fuel : Nat) (data : List (BitVec 32)) (hw : 0 < w)
    (hu : data.length + 2 * (w + 1) < c.usize) (hvec : 4 * w < c.usize)
    (hfuel : data.length / 2 / w < fuel) :
    exampleStrided w c fuel data = ok (List.ofFn (n := data.length / 2) fun i =>
      some (data[2 * i.val]'(by omega) + data[2 * i.val + 1]'(by omega))) := by
  obtain ⟨out, h1, h2, h3⟩ := C100_stride_two (P := fun _ (a b r : BitVec 32) => r = a + b)
    (fun _ (v : Vector (BitVec 32) w × Vector (BitVec 32) w × Unit) =>
      ok (Vector.zipWith (· + ·) v.1 v.2.1, ()))
    (fun a b => ⟨_, rfl, fun j hj => by simp⟩) c fuel data (Packed.splat 99#32) (Packed.splat 99#32)
    hw hu (by decide) rfl (by simp only [Packable.size]; omega) hfuel
  refine Eq.trans h1 ?_
  congr 1
  apply List.ext_getElem
  · simp [h2]
  · intro i hi hi'
    have hi : i < out.length := by simpa using hi
    simpa using h3 i hi (by omega) (by omega)

example : exampleStrided 4 debug64 9 ((List.range 20).map (BitVec.ofNat 32)) =
    ok (([1, 5, 9, 13, 17, 21, 25, 29, 33, 37] : List (BitVec 32)).map some) := by decide +kernel

end Faster
