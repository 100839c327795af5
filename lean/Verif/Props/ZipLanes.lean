import Verif.Examples
import Verif.Props.EndToEnd
import Verif.Props.Kernels
import Verif.Props.Cast
import Verif.Props.Portability
import Verif.Props.Base100
/-
C100: zips whose closure treats the lanes of a vector differently, and the benchmark
`zip_simd`, whose downcast does.
-/
namespace Faster
open Res SIMDSized SIMDIterable SIMDIterator

/-! ### Vocabulary -/

/-- The lane in which element `i` of `N` travels through a pass with `w` lanes: rests
are right-aligned. -/
def laneOf (w N i : Nat) : Nat := if i < N / w * w then i % w else w - N % w + i % w

example : (List.range 7).map (laneOf 4 7) = [0, 1, 2, 3, 1, 2, 3] := by decide
example : (List.range 3).map (laneOf 4 3) = [1, 2, 3] := by decide

/-! ### Lemmas -/

theorem lanes_getElem? {α : Type} {w : Nat} (hw : 0 < w) (vs : List (Vector α w)) (i : Nat) :
    (lanes vs)[i]? = vs[i / w]?.bind fun v => v.toList[i % w]? := by
  induction vs generalizing i with
  | nil => simp [lanes]
  | cons v vs ih =>
    simp only [lanes, List.flatMap_cons] at ih ⊢
    rw [List.getElem?_append]
    simp only [Vector.length_toList]
    split
    · next h => rw [Nat.div_eq_of_lt h, Nat.mod_eq_of_lt h]; simp
    · next h =>
      rw [ih, Nat.mod_eq_sub_mod (a := i) (by omega), Nat.div_eq_sub_div (a := i) hw (by omega)]
      simp

theorem unpad_getElem? {α : Type} {w : Nat} (hw : 0 < w) (p : Nat) (vs : List (Vector α w))
    (v : Vector α w) (i : Nat) :
    (unpad p (vs ++ [v]))[i]? = if i < vs.length * w then vs[i / w]?.bind fun v => v.toList[i % w]?
      else v.toList[p + (i - vs.length * w)]? := by
  rw [unpad_concat, List.getElem?_append, lanes_length, List.getElem?_drop, lanes_getElem? hw]

/-- Which lane of which call element `i` of the result of a pass comes from. -/
theorem unpad_calls_map {α β : Type} {w : Nat} (hw : 0 < w) (d : Vector α w) (data : List α)
    (G : Vector α w → Vector β w) (i : Nat) (hi : i < data.length) :
    laneOf w data.length i < w ∧ ∃ v ∈ calls w d data,
      data[i]? = v.toList[laneOf w data.length i]? ∧
      (unpad ((w - data.length % w) % w) ((calls w d data).map G))[i]? =
        (G v).toList[laneOf w data.length i]? := by
  have hm := Nat.mod_lt data.length hw
  have hdm := Nat.div_add_mod data.length w
  have him := Nat.mod_lt i hw
  have hidm := Nat.div_add_mod i w
  have hlen : (calls w d data).length = data.length / w + if data.length % w = 0 then 0 else 1 := by
    simp only [calls, List.length_append, fullWindows_length]
    split <;> simp
  have hlane : laneOf w data.length i < w := by
    unfold laneOf
    split
    · exact him
    · next h =>
      have h1 : i / w = data.length / w := by
        apply Nat.div_eq_of_lt_le
        · omega
        · rw [Nat.succ_mul, Nat.mul_comm]; omega
      rw [h1] at hidm
      omega
  refine ⟨hlane, ?_⟩
  rcases List.eq_nil_or_concat (calls w d data) with h0 | ⟨us, u, hu⟩
  · rw [h0] at hlen
    simp only [List.length_nil] at hlen
    have : 0 < data.length / w + if data.length % w = 0 then 0 else 1 := by
      split
      · next h => 
        have : data.length = w * (data.length / w) := by omega
        rcases Nat.eq_zero_or_pos (data.length / w) with h' | h'
        · rw [h', Nat.mul_zero] at this; omega
        · exact Nat.add_pos_left h' _
      · exact Nat.succ_pos _
    exact absurd hlen (Nat.ne_of_lt this)
  · rw [List.concat_eq_append] at hu
    have key : ∀ {γ : Type} (K : Vector α w → Vector γ w),
        (unpad ((w - data.length % w) % w) ((calls w d data).map K))[i]? =
          if i < us.length * w then us[i / w]?.bind fun v => (K v).toList[i % w]?
          else (K u).toList[(w - data.length % w) % w + (i - us.length * w)]? := by
      intro γ K
      rw [hu, List.map_append, List.map_cons, List.map_nil, unpad_getElem? hw, List.length_map]
      split
      · rw [List.getElem?_map]; cases us[i / w]? <;> simp
      · rfl
    have kd := key (γ := α) id
    rw [List.map_id, unpad_calls hw] at kd
    rw [kd, key G]
    have hul : us.length + 1 = (calls w d data).length := by rw [hu]; simp
    by_cases hlt : i < us.length * w
    · rw [if_pos hlt, if_pos hlt]
      have hk : i / w < us.length := by rw [Nat.div_lt_iff_lt_mul hw]; exact hlt
      have hl : laneOf w data.length i = i % w := by
        unfold laneOf
        rw [if_pos]
        have : us.length ≤ data.length / w := by rw [hlen] at hul; split at hul <;> omega
        calc i < us.length * w := hlt
          _ ≤ _ := Nat.mul_le_mul_right _ this
      rw [hl]
      exact ⟨us[i / w], by rw [hu]; simp, by simp [hk], by simp [hk]⟩
    · rw [if_neg hlt, if_neg hlt]
      have hl : laneOf w data.length i = (w - data.length % w) % w + (i - us.length * w) := by
        unfold laneOf
        rw [hlen] at hul
        by_cases hz : data.length % w = 0
        · rw [if_pos hz] at hul
          have : us.length * w + w = data.length / w * w := by
            rw [show data.length / w = us.length + 1 by omega, Nat.succ_mul]
          rw [if_pos (by rw [Nat.mul_comm]; omega), hz, Nat.sub_zero, Nat.mod_self, Nat.zero_add]
          have h1 : i / w = us.length := by
            apply Nat.div_eq_of_lt_le
            · omega
            · rw [Nat.succ_mul, this, Nat.mul_comm]; omega
          rw [h1, Nat.mul_comm] at hidm
          omega
        · rw [if_neg hz] at hul
          have hul : us.length = data.length / w := by omega
          rw [if_neg (by rw [← hul]; exact hlt), Nat.mod_eq_of_lt (show w - data.length % w < w by omega)]
          have h1 : i / w = us.length := by
            apply Nat.div_eq_of_lt_le
            · omega
            · rw [Nat.succ_mul, hul, Nat.mul_comm]; omega
          rw [h1, Nat.mul_comm] at hidm
          omega
      rw [hl]
      exact ⟨u, by rw [hu]; simp, rfl, rfl⟩

/-- A total closure related to its arguments lane by lane, the lane being known. -/
theorem unpad_calls_related {α β : Type} {w : Nat} (hw : 0 < w) {R : Nat → α → β → Prop}
    {G : Vector α w → Vector β w} (hG : ∀ v j (hj : j < w), R j v[j] (G v)[j])
    (d : Vector α w) (data : List α) :
    let out := unpad ((w - data.length % w) % w) ((calls w d data).map G)
    out.length = data.length ∧ ∀ i (h : i < data.length) (h' : i < out.length),
      R (laneOf w data.length i) data[i] out[i] := by
  intro out
  have hl := (pointwise_unpad (R := fun _ _ => True) (G := G) (fun _ _ _ => trivial)
    ((w - data.length % w) % w) (calls w d data)).1
  rw [unpad_calls hw] at hl
  refine ⟨hl, fun i h h' => ?_⟩
  obtain ⟨hj, v, -, h1, h2⟩ := unpad_calls_map hw d data G i h
  have h2 : out[i]? = _ := h2
  rw [List.getElem?_eq_getElem h, List.getElem?_eq_getElem (by simpa using hj), Option.some.injEq,
    Vector.getElem_toList] at h1
  rw [List.getElem?_eq_getElem h', List.getElem?_eq_getElem (by simpa using hj), Option.some.injEq,
    Vector.getElem_toList] at h2
  rw [h1, h2]
  exact hG v _ hj

theorem callAll_map {α β γ : Type} (f : FnMut Unit β γ) (p : α → β) (G : α → γ)
    (h : ∀ v, f () (p v) = ok (G v, ())) (vs : List α) :
    callAll f () (vs.map p) = ok (vs.map G, ()) := by
  induction vs with
  | nil => rfl
  | cons v vs ih => simp [callAll, h, ih]

/-! ### C100 -/

/-- **C100**, one slice: a closure which never fails and relates every lane to the same
lane of its result, possibly differently in different lanes. Element `i` of the result
is related to element `i` of the data as the closure relates lane `laneOf w N i`. -/
theorem C100_map {α β : Type} [Packable α] [Packable β] {w : Nat} {P : Nat → α → β → Prop}
    {F : Vector α w → Res (Vector β w)}
    (hF : ∀ v, ∃ u, F v = ok u ∧ ∀ j (hj : j < w), P j v[j] u[j])
    (c : Cfg) (fuel : Nat) (data : List α) (d : Vector α w)
    (hw : 0 < w) (hs : 0 < Packable.size β) (hsize : Packable.size α = Packable.size β)
    (hlen : data.length + w < c.usize)
    (hvec : w * Packable.size α < c.usize) (hfuel : data.length / w < fuel) :
    ∃ out : List β, (do
      let (_, out) ← scalarCollect c fuel (simdMap (simdIter data d) () (useOp F))
      ok out) = ok (out.map some) ∧ out.length = data.length ∧
      ∀ i (h : i < data.length) (h' : i < out.length), P (laneOf w data.length i) data[i] out[i] := by
  choose G hG using hF
  have hpure : useOp F = pureFn G := by
    funext st v
    simp [useOp, pureFn, (hG v).1]
  have hdm := Nat.div_mul_le_self data.length w
  refine ⟨_, ?_, unpad_calls_related hw (fun v => (hG v).2) d data⟩
  rw [hpure, C05_collect_any_closure c fuel data d () _ hw hw hs (by rw [hsize]) hlen
    (by rw [Nat.succ_mul]; omega) hvec hfuel, callAll_pure]
  simp only [ok_bind]
  rw [hsize, Nat.mul_div_cancel _ (by omega)]

section General
variable {I R α γ δ : Type} {w : Nat} [SIMDSized I] [SIMDIterator I α w] [Packable α]
  [ZipRest R γ] [LawfulRest R γ δ w] {c : Cfg} {S : Nat → I} {r : R} {rows : List (α × δ)}
  {dv : Vector (α × δ) w} {more : Nat → Prop}

/-- **C100**, zips of any arity. -/
theorem C100_zip {β : Type} [Packable β] {P : Nat → α × δ → β → Prop}
    (hd : Driver c S (rows.map Prod.fst) (dv.map Prod.fst) more) (hw : 0 < w)
    (hr : LawfulRest.Rep c r (rows.map Prod.snd) (dv.map Prod.snd))
    (hu : rows.length + w < c.usize) (fuel : Nat) (f : FnMut Unit (Vector α w × γ) (Vector β w))
    (hf : ∀ v : Vector (α × δ) w, ∃ u, f () (packRow R v) = ok (u, ()) ∧
      ∀ j (hj : j < w), P j v[j] u[j])
    (hs : 0 < Packable.size β) (hsize : Packable.size α = Packable.size β)
    (hvec : w * Packable.size α < c.usize) (hfuel : rows.length / w < fuel) :
    ∃ out : List β, (do
      let z ← zip c (S 0) r
      let (_, out) ← scalarCollect c fuel (zsimdMap z () f)
      ok out) = ok (out.map some) ∧ out.length = rows.length ∧
      ∀ i (h : i < rows.length) (h' : i < out.length), P (laneOf w rows.length i) rows[i] out[i] := by
  choose G hG using hf
  have h1 := Nat.div_mul_le_self rows.length w
  have h := zip_collect_any hd hw hr hu fuel () f hw hs (by rw [hsize])
    (by rw [Nat.succ_mul]; omega) hvec hfuel
  rw [callAll_map f (packRow R) G (fun v => (hG v).1)] at h
  simp only [ok_bind] at h
  refine ⟨_, ?_, unpad_calls_related hw (fun v => (hG v).2) dv rows⟩
  rw [← bind_assoc, h]
  simp only [ok_bind]
  rw [← hsize, Nat.mul_div_cancel _ (by omega)]

end General

/-- **C100**, two zipped strides of one slice, as of `stride_two`. -/
theorem C100_stride_two {α β : Type} [Packable α] [Packable β] {w : Nat}
    {P : Nat → α → α → β → Prop} (f : FnMut Unit (Vector α w × Vector α w × Unit) (Vector β w))
    (hf : ∀ a b, ∃ u, f () (a, b, ()) = ok (u, ()) ∧ ∀ j (hj : j < w), P j a[j] b[j] u[j])
    (c : Cfg) (fuel : Nat) (l : List α) (d d' : Vector α w)
    (hw : 0 < w) (hu : l.length + 2 * (w + 1) < c.usize)
    (hs : 0 < Packable.size β) (hsize : Packable.size α = Packable.size β)
    (hvec : w * Packable.size α < c.usize) (hfuel : l.length / 2 / w < fuel) :
    ∃ out : List β, (do
      let t := strideTwo (w := w) (⟨l⟩ : Slice α w) (d, d')
      let z ← zip c t.1 (t.2, ())
      let (_, out) ← scalarCollect c fuel (zsimdMap z () f)
      ok out) = ok (out.map some) ∧ out.length = l.length / 2 ∧
      ∀ i (h : i < out.length) (h0 : 2 * i < l.length) (h1 : 2 * i + 1 < l.length),
        P (laneOf w (l.length / 2) i) l[2 * i] l[2 * i + 1] out[i] := by
  have h01 : (0 : Nat) < 2 := by omega
  have h12 : (1 : Nat) < 2 := by omega
  obtain ⟨S, more, hd, h0, -⟩ := strideAt_driver c l h01 d hw hu
  have hlen : (rows2 (strided 2 0 l h01) (strided 2 1 l h12)).length = l.length / 2 := by
    simp [rows2]
  have e1 : (rows2 (strided 2 0 l h01) (strided 2 1 l h12)).map Prod.fst = strided 2 0 l h01 := by
    apply List.ext_getElem <;> simp [rows2]
  have e2 : ((rows2 (strided 2 0 l h01) (strided 2 1 l h12)).map Prod.snd).map Prod.fst =
      strided 2 1 l h12 := by
    apply List.ext_getElem <;> simp [rows2]
  have e3 : (Vector.zipWith (fun a b => (a, b, ())) d d').map Prod.fst = d := by
    ext i hi; simp
  have e4 : ((Vector.zipWith (fun a b => (a, b, ())) d d').map Prod.snd).map Prod.fst = d' := by
    ext i hi; simp
  obtain ⟨out, k1, k2, k3⟩ := C100_zip (c := c) (S := S) (more := more)
    (P := fun j (t : α × α × Unit) z => P j t.1 t.2.1 z)
    (r := ((strideAt (⟨l⟩ : Slice α w) 2 1 d', ()) : PackedStride (Slice α w) α w × Unit))
    (rows := rows2 (strided 2 0 l h01) (strided 2 1 l h12))
    (dv := Vector.zipWith (fun a b => (a, b, ())) d d')
    (by rw [e1, e3]; exact hd) hw
    (by
      refine ⟨?_, trivial⟩
      rw [e2, e4]
      exact repIter_strideAt c l h12 d' hw hu)
    (by omega) fuel f
    (by
      intro v
      obtain ⟨u, h1, h2⟩ := hf (v.map Prod.fst) ((v.map Prod.snd).map Prod.fst)
      refine ⟨u, h1, fun j hj => ?_⟩
      simpa using h2 j hj) hs hsize hvec (by rwa [hlen])
  rw [h0] at k1
  refine ⟨out, k1, k2.trans hlen, fun i h h0 h1 => ?_⟩
  have := k3 i (by omega) h
  rw [← hlen]
  generalize laneOf w (rows2 (strided 2 0 l h01) (strided 2 1 l h12)).length i = j at this ⊢
  simp only [rows2, List.getElem_zipWith, strided_getElem] at this
  convert this using 2 <;> omega

/-! ### The benchmark -/

/-- The operations of the crate for `i32x4` (`q = 2`) and `i32x8` (`q = 4`), in any
version. -/
def zipSimdOf (q : Nat) (ru : UpRow) (ra : AbsRow) (rd : DownRow) (ou oa od : Bool) :
    ZipSimdOps q where
  up := upVersion ou ru
  abs := absOf oa ra
  down := downVersion od rd

/-- The largest value which lane `j` of the downcast from `u64` can return. -/
def zipTop (q j : Nat) : Nat := if j < q ∧ j % 2 = 0 then 2 ^ 32 - 1 else 2 ^ 31 - 1

/-- The rows for one `q`. -/
structure ZipSimdRows (q : Nat) (ru : UpRow) (ra : AbsRow) (rd : DownRow) : Prop where
  hru : ru ∈ upcastRows ++ upcastRowsUnknown
  hra : ra ∈ absRows ++ absRowsUnknown
  hrd : rd ∈ downcastRows ++ downcastRowsUnknown
  eu : ru.kind = .i ∧ ru.toKind = .i ∧ ru.size = 4 ∧ ru.width = 2 * q
  ea : ra.kind = .i ∧ ra.size = 8 ∧ ra.width = q
  ed : rd.kind = .u ∧ rd.size = 4 ∧ rd.width = q

example : ∃ ru ra rd, ZipSimdRows 2 ru ra rd :=
  ⟨upcastRows[10]'(by decide), absRows[10]'(by decide), downcastRows[2]'(by decide),
    List.mem_append_left _ (List.getElem_mem _), List.mem_append_left _ (List.getElem_mem _),
    List.mem_append_left _ (List.getElem_mem _), by decide, by decide, by decide⟩

theorem upcastRowsUnknown_mm : ∀ r ∈ upcastRowsUnknown, r.mm = none := by decide
theorem absRowsUnknown_mm : ∀ r ∈ absRowsUnknown, r.mm = none := by decide
theorem downcast_u64_mm : ∀ r ∈ downcastRows ++ downcastRowsUnknown, r.kind = .u → r.size = 4 →
    r.mm = none ∧ ∀ j, j < 2 * r.width → (r.lanes.map DownLane.top)[j]? = some (zipTop r.width j : Int) := by
  decide +kernel

theorem zipSimd_up {q : Nat} (ou : Bool) (r : UpRow) (hr : r ∈ upcastRows ++ upcastRowsUnknown)
    (hk : r.kind = .i) (ht : r.toKind = .i) (hs : r.size = 4) (hw : r.width = 2 * q)
    (v : Vector (BitVec 32) (2 * q)) :
    ∃ a b : Vector (BitVec 64) q, upVersion ou r v = ok (a, b) ∧
      ∀ j (hj : j < q), a[j].toInt = v[j].toInt ∧ b[j].toInt = v[q + j].toInt := by
  have key : ∃ a b : Vector (BitVec 64) q, upVersion ou r v = ok (a, b) ∧ IsUpcast true v a b := by
    have gen : ∀ {n k w w' : Nat} (hn : n = 8 * r.size) (hn' : k = 16 * r.size)
        (hw : w = r.width) (hw' : w' = r.width / 2) (v : Vector (BitVec n) w),
        ∃ a b : Vector (BitVec k) w', upVersion ou r v = ok (a, b) ∧ IsUpcast true v a b := by
      intro n k w w' hn hn' hw hw' v
      subst hn hn' hw hw'
      have hsg : r.kind.signed = true := by rw [hk]; rfl
      rw [← hsg]
      unfold upVersion
      split
      · rename_i mm hm
        rcases List.mem_append.mp hr with h | h
        · exact C45_optimized r h (by simp [ht]) mm hm _ v
        · rw [upcastRowsUnknown_mm r h] at hm; cases hm
      · exact C45_fallback r hr (by simp [ht]) _ v
    exact gen (by omega) (by omega) (by omega) (by omega) v
  obtain ⟨a, b, h1, h2⟩ := key
  refine ⟨a, b, h1, fun j hj => ?_⟩
  unfold IsUpcast at h2
  have ha := congrArg (·[j]?) h2
  have hb := congrArg (·[q + j]?) h2
  simp only [List.map_append, List.getElem?_append, List.length_map, Vector.length_toList,
    if_pos hj, if_neg (show ¬ q + j < q by omega), Nat.add_sub_cancel_left] at ha hb
  simpa [hj, show j < 2 * q by omega, show q + j < 2 * q by omega, num] using And.intro ha hb

theorem zipSimd_abs {q : Nat} (oa : Bool) (r : AbsRow) (hr : r ∈ absRows ++ absRowsUnknown)
    (hk : r.kind = .i) (hs : r.size = 8) (hw : r.width = q) (v : Vector (BitVec 64) q) :
    ∃ o, absOf oa r v = ok o ∧ IsAbs v o := by
  have gen : ∀ {n w : Nat} (hn : n = 8 * r.size) (hw : w = r.width) (v : Vector (BitVec n) w),
      ∃ o, absOf oa r v = ok o ∧ IsAbs v o := by
    intro n w hn hw v
    subst hn hw
    unfold absOf
    split
    · rename_i mm hm
      rcases List.mem_append.mp hr with h | h
      · exact C44_int_optimized r h hk mm hm v
      · rw [absRowsUnknown_mm r h] at hm; cases hm
    · exact C44_int_fallback r (List.mem_append.mp hr) hk v
  exact gen (by omega) hw.symm v

theorem zipSimd_down {q : Nat} (od : Bool) (r : DownRow)
    (hr : r ∈ downcastRows ++ downcastRowsUnknown)
    (hk : r.kind = .u) (hs : r.size = 4) (hw : r.width = q) (a b : Vector (BitVec 64) q) :
    ∃ o : Vector (BitVec 32) (2 * q), downVersion od r a b = ok o ∧
      ∀ j (hj : j < 2 * q), o[j].toNat = min
        (if h : j < q then a[j].toNat else (b[j - q]'(by omega)).toNat) (zipTop q j) := by
  subst hw
  obtain ⟨hm, ht⟩ := downcast_u64_mm r hr hk hs
  obtain ⟨o, h1, h2⟩ := C46_u64 r hr hk hs a b
  refine ⟨o, ?_, fun j hj => ?_⟩
  · unfold downVersion
    rw [hm]
    cases od <;> exact h1
  · obtain ⟨l, hl, hj', -, h⟩ := h2 j hj
    have htop := ht j hj
    rw [Option.mem_def] at hl
    rw [List.getElem?_map, hl, Option.map_some, Option.some.injEq] at htop
    rw [htop] at h
    by_cases hlt : j < r.width
    · rw [dif_pos hlt]
      simp only [if_pos hlt, Nat.mod_eq_of_lt hlt] at h
      omega
    · rw [dif_neg hlt]
      simp only [if_neg hlt, Nat.mod_eq_sub_mod (Nat.le_of_not_lt hlt),
        Nat.mod_eq_of_lt (show j - r.width < r.width by omega)] at h
      omega

/-- One call of the closure. -/
theorem zipSimdBody_lanes {q : Nat} {ru : UpRow} {ra : AbsRow} {rd : DownRow}
    (h : ZipSimdRows q ru ra rd) (ou oa od : Bool) (a b : Vector (BitVec 32) (2 * q)) :
    ∃ u, zipSimdBody (zipSimdOf q ru ra rd ou oa od) () (a, b, ()) = ok (u, ()) ∧
      ∀ j (hj : j < 2 * q), u[j].toNat =
        min (a[j].toInt.natAbs + b[j].toInt.natAbs) (zipTop q j) := by
  obtain ⟨eu1, eu2, eu3, eu4⟩ := h.eu
  obtain ⟨ea1, ea2, ea3⟩ := h.ea
  obtain ⟨ed1, ed2, ed3⟩ := h.ed
  obtain ⟨aa, ab, h1, hA⟩ := zipSimd_up ou ru h.hru eu1 eu2 eu3 eu4 a
  obtain ⟨ba, bb, h2, hB⟩ := zipSimd_up ou ru h.hru eu1 eu2 eu3 eu4 b
  obtain ⟨x, h3, hx⟩ := zipSimd_abs oa ra h.hra ea1 ea2 ea3 aa
  obtain ⟨y, h4, hy⟩ := zipSimd_abs oa ra h.hra ea1 ea2 ea3 ba
  obtain ⟨z, h5, hz⟩ := zipSimd_abs oa ra h.hra ea1 ea2 ea3 ab
  obtain ⟨t, h6, ht⟩ := zipSimd_abs oa ra h.hra ea1 ea2 ea3 bb
  obtain ⟨u, h7, hu⟩ := zipSimd_down od rd h.hrd ed1 ed2 ed3 (Vector.zipWith (· + ·) x y)
    (Vector.zipWith (· + ·) z t)
  refine ⟨u, ?_, fun j hj => ?_⟩
  · simp only [zipSimdBody, zipSimdOf, h1, h2, h3, h4, h5, h6, h7, ok_bind]
  · rw [hu j hj]
    congr 1
    have l1 := (a[j]).isLt
    have a1 := BitVec.two_mul_toInt_lt (x := a[j])
    have a2 := BitVec.le_two_mul_toInt (x := a[j])
    have b1 := BitVec.two_mul_toInt_lt (x := b[j])
    have b2 := BitVec.le_two_mul_toInt (x := b[j])
    by_cases hlt : j < q
    · rw [dif_pos hlt]
      have e1 := hx j hlt
      have e2 := hy j hlt
      rw [(hA j hlt).1] at e1
      rw [(hB j hlt).1] at e2
      rw [Vector.getElem_zipWith, BitVec.toNat_add, Nat.mod_eq_of_lt] <;> split at e1 <;> split at e2 <;> omega
    · rw [dif_neg hlt]
      have e1 := hz (j - q) (by omega)
      have e2 := ht (j - q) (by omega)
      have hA := (hA (j - q) (by omega)).2
      have hB := (hB (j - q) (by omega)).2
      simp only [show q + (j - q) = j by omega] at hA hB
      rw [hA] at e1
      rw [hB] at e2
      rw [Vector.getElem_zipWith, BitVec.toNat_add, Nat.mod_eq_of_lt] <;> split at e1 <;> split at e2 <;> omega

theorem ZipSimdRows.q_pos {q : Nat} {ru : UpRow} {ra : AbsRow} {rd : DownRow}
    (h : ZipSimdRows q ru ra rd) : q = 2 ∨ q = 4 := by
  have : ∀ r ∈ downcastRows ++ downcastRowsUnknown, r.kind = .u → r.size = 4 →
    r.width = 2 ∨ r.width = 4 := by decide +kernel
  obtain ⟨ed1, ed2, ed3⟩ := h.ed
  rw [← ed3]
  exact this rd h.hrd ed1 ed2

/-- **C100**, the benchmark `zip_simd` exactly: result `i` is the sum of the magnitudes
of elements `2 * i` and `2 * i + 1`, cut off at the limit of its lane. -/
theorem C100_zip_simd {q : Nat} {ru : UpRow} {ra : AbsRow} {rd : DownRow}
    (h : ZipSimdRows q ru ra rd) (ou oa od : Bool) (c : Cfg) (fuel : Nat) (data : List (BitVec 32))
    (hu : data.length + 2 * (2 * q + 1) < c.usize) (h64 : 64 < c.usize)
    (hfuel : data.length / 2 / (2 * q) < fuel) :
    ∃ out : List (BitVec 32), zipSimd (zipSimdOf q ru ra rd ou oa od) c fuel data = ok (out.map some) ∧
      out.length = data.length / 2 ∧
      ∀ i (hi : i < out.length) (h0 : 2 * i < data.length) (h1 : 2 * i + 1 < data.length),
        out[i].toNat = min (data[2 * i].toInt.natAbs + data[2 * i + 1].toInt.natAbs)
          (zipTop q (laneOf (2 * q) (data.length / 2) i)) := by
  have hq := h.q_pos
  exact C100_stride_two
    (P := fun j (a b r : BitVec 32) => r.toNat = min (a.toInt.natAbs + b.toInt.natAbs) (zipTop q j))
    (zipSimdBody (zipSimdOf q ru ra rd ou oa od)) (fun a b => zipSimdBody_lanes h ou oa od a b)
    c fuel data (Packed.splat 0#32) (Packed.splat 0#32) (by omega) hu (by decide) rfl
    (by simp only [Packable.size]; omega) hfuel

/-- **C100**, partial: sums below 2^31 are right. The sum of two magnitudes is at most
2^32, and the results are meant to be cut off at 2^32 - 1. -/
theorem C100_zip_simd_partial {q : Nat} {ru : UpRow} {ra : AbsRow} {rd : DownRow}
    (h : ZipSimdRows q ru ra rd) (ou oa od : Bool) (c : Cfg) (fuel : Nat) (data : List (BitVec 32))
    (hu : data.length + 2 * (2 * q + 1) < c.usize) (h64 : 64 < c.usize)
    (hfuel : data.length / 2 / (2 * q) < fuel)
    (hsmall : ∀ i (h0 : 2 * i < data.length) (h1 : 2 * i + 1 < data.length),
      data[2 * i].toInt.natAbs + data[2 * i + 1].toInt.natAbs < 2 ^ 31) :
    zipSimd (zipSimdOf q ru ra rd ou oa od) c fuel data =
      ok ((List.ofFn (n := data.length / 2) fun i => BitVec.ofNat 32
        ((data[2 * i.val]'(by omega)).toInt.natAbs +
          (data[2 * i.val + 1]'(by omega)).toInt.natAbs)).map some) := by
  obtain ⟨out, h1, h2, h3⟩ := C100_zip_simd h ou oa od c fuel data hu h64 hfuel
  rw [h1]
  congr 2
  apply List.ext_getElem
  · simp [h2]
  · intro i hi hi'
    have hs := hsmall i (by omega) (by omega)
    have := h3 i hi (by omega) (by omega)
    apply BitVec.eq_of_toNat_eq
    rw [this, List.getElem_ofFn, BitVec.toNat_ofNat, Nat.mod_eq_of_lt (Nat.lt_trans hs (by decide))]
    apply Nat.min_eq_left
    unfold zipTop
    split <;> omega

/-- **C100**, the array of the benchmark: any even number of -123 gives 246s. -/
theorem C100_benchmark {q : Nat} {ru : UpRow} {ra : AbsRow} {rd : DownRow}
    (h : ZipSimdRows q ru ra rd) (ou oa od : Bool) (c : Cfg) (fuel N : Nat)
    (hu : 2 * N + 2 * (2 * q + 1) < c.usize) (h64 : 64 < c.usize) (hfuel : N / (2 * q) < fuel) :
    zipSimd (zipSimdOf q ru ra rd ou oa od) c fuel (List.replicate (2 * N) (-123#32)) =
      ok (List.replicate N (some 246#32)) := by
  have hn : (-123#32).toInt.natAbs = 123 := by decide
  rw [C100_zip_simd_partial h ou oa od c fuel _ (by simpa using hu) h64 (by simpa using hfuel)
    (by intro i h0 h1; simp only [List.getElem_replicate, hn]; omega)]
  congr 1
  apply List.ext_getElem
  · simp
  · intro i h1 h2
    simp only [List.getElem_map, List.getElem_ofFn, List.getElem_replicate, hn]

/-- **C100** is false: the sum of the magnitudes of -2^31 and -2^31 + 1 fits in `u32`,
but the result is 2^31 - 1. -/
theorem C100_false {q : Nat} {ru : UpRow} {ra : AbsRow} {rd : DownRow}
    (h : ZipSimdRows q ru ra rd) (ou oa od : Bool) :
    zipSimd (zipSimdOf q ru ra rd ou oa od) debug64 9 [0x80000000#32, 0x80000001#32] =
      ok [some 0x7fffffff#32] ∧
    (0x80000000#32).toInt.natAbs + (0x80000001#32).toInt.natAbs = 2 ^ 32 - 1 := by
  refine ⟨?_, by decide⟩
  have hq := h.q_pos
  obtain ⟨out, h1, h2, h3⟩ := C100_zip_simd h ou oa od debug64 9 [0x80000000#32, 0x80000001#32]
    (by simp [debug64]; omega) (by decide) (by rcases hq with rfl | rfl <;> decide)
  rw [h1]
  have h2 : out.length = 1 := h2
  have := h3 0 (by omega) (by decide) (by decide)
  obtain ⟨x, rfl⟩ := List.length_eq_one_iff.mp h2
  congr 1
  apply congrArg (fun y => [some y])
  apply BitVec.eq_of_toNat_eq
  have e : x.toNat = _ := this
  rw [e]
  rcases hq with rfl | rfl <;> decide

end Faster
