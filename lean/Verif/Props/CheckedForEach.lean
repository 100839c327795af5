import Verif.Props.Checked
import Verif.Props.ForEach
import Verif.Props.ForLoops
/-
C139 for simd_for_each: what a checked lane-wise closure leaves in the collection.
-/
namespace Faster
open Res SIMDSized SIMDIterable SIMDIterator

section
variable {α : Type} [Packable α] {w : Nat}

/-- **C139**, `simd_for_each`: if the scalar computation succeeds for every element and for the
default lanes of the last vector, the elements are replaced by its results. -/
theorem C139_for_each_ok (c : Cfg) (fuel : Nat) (data : List α) (d : Vector α w)
    {G : Vector α w → Res (Vector α w)} {g : α → Res α} {k : α → α} (hG : Lifts G g)
    (hw : 0 < w) (hlen : data.length + w < c.usize) (hfuel : data.length / w < fuel)
    (hk : ∀ x ∈ data, g x = ok (k x)) (hd : ∀ x ∈ padLanes w d data, g x = ok (k x)) :
    simdForEach c fuel () (useOp G) (simdIter data d) = (ok (), ⟨data.length, ⟨data.map k⟩, d⟩) := by
  have h := C10_for_each_any_closure c fuel data d () () (useOp G) _ hw hlen hfuel
    (callAll_lifts_ok hG (k := k) (calls w d data) fun x hx =>
      ((mem_lanes_calls hw d data x).mp hx).elim (hk x) (hd x))
  rw [h, unpad_map, unpad_calls hw]

omit [Packable α] in
/-- The lanes of call `m` of a pass: elements `m * w` to `(m + 1) * w - 1`, and the default lanes if the
elements end before. -/
theorem mem_calls_getElem (hw : 0 < w) (d : Vector α w) (data : List α) (m : Nat) (hm : m * w < data.length) :
    ∃ v, (calls w d data)[m]? = some v ∧
      lanes ((calls w d data).take m) = data.take (m * w) ∧
      (∀ i (h : i < data.length), m * w ≤ i → i < (m + 1) * w → ∃ j, ∃ hj : j < w, v[j] = data[i]) ∧
      (data.length < (m + 1) * w → ∀ x ∈ padLanes w d data, ∃ j, ∃ hj : j < w, v[j] = x) := by
  have hdm := Nat.div_add_mod data.length w
  have hmod := Nat.mod_lt data.length hw
  have hfl := fullWindows_length w data
  have hq : m ≤ data.length / w := by
    rw [Nat.le_div_iff_mul_le hw]; omega
  have hsucc : (m + 1) * w = m * w + w := Nat.succ_mul m w
  have htake : lanes ((calls w d data).take m) = data.take (m * w) := by
    unfold calls
    rw [List.take_append_of_le_length (by omega), lanes_take m data hq hw]
  by_cases h : m < data.length / w
  · have hmw : (m + 1) * w ≤ data.length := by
      have := (Nat.le_div_iff_mul_le hw).mp (Nat.succ_le_of_lt h)
      exact this
    refine ⟨windowAt data (m * w) w (by omega), ?_, htake, ?_, ?_⟩
    · unfold calls
      rw [List.getElem?_append_left (by omega), fullWindows, List.getElem?_ofFn, dif_pos h]
      rfl
    · intro i hi h1 h2
      refine ⟨i - m * w, by omega, ?_⟩
      simp only [windowAt, Vector.getElem_ofFn]
      congr 1
      omega
    · intro h2; omega
  · have hmq : m = data.length / w := by omega
    have hmul : m * w = w * (data.length / w) := by rw [hmq, Nat.mul_comm]
    have h0 : data.length % w ≠ 0 := by omega
    have hl : (leftover w data).length = data.length % w := leftover_length w data
    refine ⟨padFront d (leftover w data), ?_, htake, ?_, ?_⟩
    · unfold calls
      rw [if_neg h0, List.getElem?_append_right (by omega), hfl, hmq]
      simp
    · intro i hi h1 h2
      refine ⟨i - m * w + (w - data.length % w), by omega, ?_⟩
      rw [padFront_getElem _ _ _ _ (by omega), dif_neg (by omega)]
      simp only [leftover, List.getElem_drop]
      congr 1
      rw [List.length_drop, Nat.mul_comm (data.length / w) w]
      omega
    · intro h2 x hx
      unfold padLanes at hx
      rw [if_neg h0] at hx
      obtain ⟨j, hj, rfl⟩ := List.getElem_of_mem hx
      simp only [List.length_take, Vector.length_toList] at hj
      refine ⟨j, by omega, ?_⟩
      rw [padFront_getElem _ _ _ _ (by omega), dif_pos (by omega)]
      simp

/-- **C139**, `simd_for_each`: if the scalar computation panics for an element of vector `m`, or for a
default lane in it, and for no element before, then the call panics, the elements before vector `m` are
replaced, and all others are as before. -/
theorem C139_for_each_panic (c : Cfg) (fuel : Nat) (data : List α) (d : Vector α w)
    {G : Vector α w → Res (Vector α w)} {g : α → Res α} {k : α → α} (hG : Lifts G g)
    (hw : 0 < w) (hlen : data.length + w < c.usize) (hfuel : data.length / w < fuel)
    (m : Nat) (hm : m * w < data.length) (hk : ∀ x ∈ data.take (m * w), g x = ok (k x))
    (hp : (∃ i, ∃ h : i < data.length, m * w ≤ i ∧ i < (m + 1) * w ∧ g data[i] = Res.panic) ∨
      (data.length < (m + 1) * w ∧ ∃ x ∈ padLanes w d data, g x = Res.panic)) :
    simdForEach c fuel () (useOp G) (simdIter data d) =
      (Res.panic, ⟨min ((m + 1) * w) data.length,
        ⟨(data.take (m * w)).map k ++ data.drop (m * w)⟩, d⟩) := by
  obtain ⟨v, hv, ht, h1, h2⟩ := mem_calls_getElem hw d data m hm
  have hpan : G v = Res.panic := by
    rcases hp with ⟨i, hi, hl, hu, e⟩ | ⟨hl, x, hx, e⟩
    · obtain ⟨j, hj, ej⟩ := h1 i hi hl hu
      exact hG.panics v j hj (by rw [ej, e])
    · obtain ⟨j, hj, ej⟩ := h2 hl x hx
      exact hG.panics v j hj (by rw [ej, e])
  have h := C12_for_each_panic c fuel data d () () (useOp G) _ m v hw hlen hfuel hv
    (callAll_lifts_ok hG (k := k) ((calls w d data).take m) fun x hx => hk x (by rwa [ht] at hx))
    (by rw [useOp, hpan]; rfl)
  rw [h, lanes_map, ht]

end

/-- Concrete states: element 5 of six overflows in a debug build, so the first vector is replaced and the
second is not; the default lanes overflow although no element does. -/
example : simdForEach debug64 9 () (useOp fun v => Soft.binop (addInt debug64 .u) 0#8 v (Packed.splat 100#8))
      (simdIter [1, 2, 3, 4, 5, 200] (Packed.splat 0#8 : Vector (BitVec 8) 4)) =
      (Res.panic, ⟨6, ⟨[101, 102, 103, 104, 5, 200]⟩, Packed.splat 0#8⟩) ∧
    simdForEach debug64 9 () (useOp fun v => Soft.binop (addInt debug64 .u) 0#8 v (Packed.splat 100#8))
      (simdIter [1, 2, 3, 4, 5] (Packed.splat 156#8 : Vector (BitVec 8) 4)) =
      (Res.panic, ⟨5, ⟨[101, 102, 103, 104, 5]⟩, Packed.splat 156#8⟩) ∧
    simdForEach debug64 9 () (useOp fun v => Soft.binop (addInt debug64 .u) 0#8 v (Packed.splat 100#8))
      (simdIter [1, 2, 3, 4, 5] (Packed.splat 0#8 : Vector (BitVec 8) 4)) =
      (ok (), ⟨5, ⟨[101, 102, 103, 104, 105]⟩, Packed.splat 0#8⟩) := by decide +kernel

/-- The closure of these states. -/
theorem lifts_add100 (c : Cfg) (w : Nat) :
    Lifts (w := w) (fun v => Soft.binop (addInt c .u) 0#8 v (Packed.splat 100#8))
      (fun x => addInt c .u x 100#8) := by
  have := Lifts.binop (w := w) (op := addInt (n := 8) c .u) 0#8
    (fun a b => overflowCheck_total _ _ _ _) (Lifts.pure id) (Lifts.splat 100#8)
  simpa [Packed.splat] using this

example := C139_for_each_ok debug64 9 [1, 2, 3, 4, 5] (Packed.splat 0#8 : Vector (BitVec 8) 4)
  (lifts_add100 debug64 4) (k := (· + 100)) (by decide) (by decide) (by decide) (by decide +kernel)
  (by decide +kernel)
example := C139_for_each_panic debug64 9 [1, 2, 3, 4, 5, 200] (Packed.splat 0#8 : Vector (BitVec 8) 4)
  (lifts_add100 debug64 4) (k := (· + 100)) (by decide) (by decide) (by decide) 1 (by decide)
  (by decide +kernel) (.inl ⟨5, by decide, by decide, by decide, by decide +kernel⟩)
example := C139_for_each_panic debug64 9 [1, 2, 3, 4, 5] (Packed.splat 156#8 : Vector (BitVec 8) 4)
  (lifts_add100 debug64 4) (k := (· + 100)) (by decide) (by decide) (by decide) 1 (by decide)
  (by decide +kernel) (.inr ⟨by decide, 156#8, by decide +kernel, by decide +kernel⟩)

end Faster
