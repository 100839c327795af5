import Verif.ForLoops
import Verif.StrideZip
import Verif.Lemmas.StrideZip
import Verif.Props.Stride
import Verif.Props.Zip
import Verif.Props.Adapter
/-
C128: which vectors a `for` loop visits, and what the unit tests of `src/stride.rs` check.

`fullWindows w l` is the list of the complete vectors of `l` (Spec.lean).
-/
namespace Faster
open Res SIMDSized SIMDIterable SIMDIterator

/-! ### Loops over iterators which deliver known vectors -/

section
variable {T α σ : Type} {w : Nat} [SIMDSized T] [SIMDIterator T α w]

theorem forVecs_doEach (c : Cfg) (body : FnMut σ (Vector α w) Unit) : ∀ (fuel : Nat) (it : T) (st : σ),
    forVecs c body fuel it st = doEachLoop c body fuel it st >>= fun p => ok p.2 := by
  intro fuel
  induction fuel with
  | zero => intro it st; rfl
  | succ fuel ih =>
    intro it st
    simp only [forVecs, doEachLoop, bind_assoc]
    congr 1
    funext p
    obtain ⟨r, it'⟩ := p
    cases r with
    | none => rfl
    | some v => simp only [bind_assoc, ih]

theorem forVecs_runs {c : Cfg} (body : FnMut σ (Vector α w) Unit) {it it' : T}
    {vs : List (Vector α w)} (h : Runs c it vs (ok it')) (fuel : Nat) (st : σ)
    (hf : vs.length < fuel) :
    forVecs c body fuel it st = callAll body st vs >>= fun p => ok p.2 := by
  rw [forVecs_doEach, doEachLoop_runs body h fuel st hf]
  simp only [bind_assoc, ok_bind]

/-- The loop over a mapped iterator calls the map's closure and the body in turn. -/
theorem forVecs_map {β τ : Type} {w' : Nat} [Packable α] [Packable β] (c : Cfg)
    (f : FnMut τ (Vector α w) (Vector β w')) (body : FnMut σ (Vector β w') Unit) :
    ∀ (fuel : Nat) (it : T) (t : τ) (st : σ),
    forVecs c body fuel (simdMap it t f) st =
      forVecs c (fun (p : τ × σ) v => f p.1 v >>= fun q => body p.2 q.1 >>= fun r =>
        ok ((), (q.2, r.2))) fuel it (t, st) >>= fun p => ok p.2 := by
  intro fuel
  induction fuel with
  | zero => intro it t st; rfl
  | succ fuel ih =>
    intro it t st
    simp only [forVecs, SIMDIterable.next, SIMDMap.next, simdMap, bind_assoc]
    congr 1
    funext p
    obtain ⟨r, it'⟩ := p
    cases r with
    | none => rfl
    | some v =>
      simp only [bind_assoc, ok_bind]
      congr 1
      funext q
      congr 1
      funext r
      exact ih it' q.2 r.2

variable {c : Cfg} {S : Nat → T} {l : List α} {d : Vector α w} {more : Nat → Prop}

/-- `next` delivers `n` vectors if it goes on at the first `n` positions and stops at the next. -/
theorem Driver.runs_exact (h : Driver c S l d more) (hw : 0 < w) : ∀ n p, p ≤ l.length →
    (∀ i, i < n → more (p + i * w)) → ¬ more (p + n * w) →
    Runs c (S p) ((fullWindows w (l.drop p)).take n) (ok (S (p + n * w))) := by
  intro n
  induction n with
  | zero =>
    intro p hp _ hn
    simp only [Nat.zero_mul, Nat.add_zero, List.take_zero] at hn ⊢
    exact Runs.done (h.next_none p hp hn)
  | succ n ih =>
    intro p hp hm hn
    obtain ⟨hle, hx⟩ := h.next_some p (by simpa using hm 0 (by omega))
    have e : ∀ i, p + (i + 1) * w = p + w + i * w := fun i => by rw [Nat.succ_mul]; omega
    have := ih (p + w) hle (fun i hi => by rw [← e]; exact hm (i + 1) (by omega)) (by rwa [← e])
    rw [fullWindows_cons hw (by simp; omega), List.take_succ_cons, List.drop_drop, e]
    have e2 : windowAt (l.drop p) 0 w (by simp; omega) = windowAt l p w hle := by
      ext i hi; simp [windowAt]
    rw [e2]
    exact Runs.step hx this

end

theorem zforVecs_doEach {Z γ σ : Type} [SIMDZippedIterator Z γ] (c : Cfg) (body : FnMut σ γ Unit) :
    ∀ (fuel : Nat) (z : Z) (st : σ),
    zforVecs c body fuel z st = zdoEachLoop c body fuel z st >>= fun p => ok p.2 := by
  intro fuel
  induction fuel with
  | zero => intro it st; rfl
  | succ fuel ih =>
    intro it st
    simp only [zforVecs, zdoEachLoop, bind_assoc]
    congr 1
    funext p
    obtain ⟨r, it'⟩ := p
    cases r with
    | none => rfl
    | some v => simp only [bind_assoc, ih]

theorem zforVecs_runs {Z γ σ : Type} [SIMDZippedIterator Z γ] {c : Cfg} (body : FnMut σ γ Unit)
    {z z' : Z} {vs : List γ} (h : ZRuns c z vs (ok z')) (fuel : Nat) (st : σ)
    (hf : vs.length < fuel) :
    zforVecs c body fuel z st = callAll body st vs >>= fun p => ok p.2 := by
  rw [zforVecs_doEach, zdoEachLoop_runs body h fuel st hf]
  simp only [bind_assoc, ok_bind]

section
variable {I R α γ δ : Type} {w : Nat} [SIMDSized I] [SIMDIterator I α w] [Packable α]
  [ZipRest R γ] [LawfulRest R γ δ w]
  {c : Cfg} {S : Nat → I} {r : R} {rows : List (α × δ)} {dv : Vector (α × δ) w}
  {more : Nat → Prop}

theorem zip_runs_exact (hd : Driver c S (rows.map Prod.fst) (dv.map Prod.fst) more) (hw : 0 < w)
    (hr : LawfulRest.Rep c r (rows.map Prod.snd) (dv.map Prod.snd)) (hu : rows.length < c.usize) :
    ∀ n p, p ≤ rows.length → (∀ i, i < n → more (p + i * w)) → ¬ more (p + n * w) →
      ZRuns c (⟨S p, r⟩ : Zip I R) (((fullWindows w (rows.drop p)).take n).map (packRow R))
        (ok ⟨S (p + n * w), r⟩) := by
  intro n
  induction n with
  | zero =>
    intro p hp _ hn
    simp only [Nat.zero_mul, Nat.add_zero, List.take_zero, List.map_nil] at hn ⊢
    exact ZRuns.done ((zip_next hd hr hu p).2 hn hp)
  | succ n ih =>
    intro p hp hm hn
    obtain ⟨hle, hx⟩ := (zip_next hd hr hu p).1 (by simpa using hm 0 (by omega))
    have e : ∀ i, p + (i + 1) * w = p + w + i * w := fun i => by rw [Nat.succ_mul]; omega
    have := ih (p + w) hle (fun i hi => by rw [← e]; exact hm (i + 1) (by omega)) (by rwa [← e])
    rw [fullWindows_cons hw (by simp; omega), List.take_succ_cons, List.drop_drop, List.map_cons, e]
    have e2 : windowAt (rows.drop p) 0 w (by simp; omega) = windowAt rows p w hle := by
      ext i hi; simp [windowAt]; simp [windowAt]
    rw [e2]
    exact ZRuns.step hx this

end

/-! ### Which vectors are visited -/

section
variable {α σ : Type} {w : Nat}

/-- **C128**, slices, from any position: the loop visits every complete vector, in order. -/
theorem C128_slice (c : Cfg) (fuel : Nat) (l : List α) (d : Vector α w) (p : Nat) (st : σ)
    (body : FnMut σ (Vector α w) Unit) (hw : 0 < w) (hu : l.length + w < c.usize)
    (hp : p + w < c.usize) (hfuel : (l.length - p) / w < fuel) :
    forVecs c body fuel (⟨p, ⟨l⟩, d⟩ : SIMDIter (Slice α w) α w) st =
      callAll body st (fullWindows w (l.drop p)) >>= fun q => ok q.2 :=
  forVecs_runs body (simdIter_runs (represents_slice c l) d hw hu p hp) fuel st
    (by rw [fullWindows_length, List.length_drop]; exact hfuel)

/-- **C128**, mapped slices: the map's closure and the body are called in turn on every complete
vector. -/
theorem C128_map {β τ : Type} {w' : Nat} [Packable α] [Packable β] (c : Cfg) (fuel : Nat)
    (l : List α) (d : Vector α w) (t : τ) (st : σ) (f : FnMut τ (Vector α w) (Vector β w'))
    (body : FnMut σ (Vector β w') Unit) (hw : 0 < w) (hu : l.length + w < c.usize)
    (hfuel : l.length / w < fuel) :
    forVecs c body fuel (simdMap (simdIter l d) t f) st =
      callAll (fun (p : τ × σ) v => f p.1 v >>= fun q => body p.2 q.1 >>= fun r =>
        ok ((), (q.2, r.2))) (t, st) (fullWindows w l) >>= fun q => ok q.2.2 := by
  rw [forVecs_map, simdIter, C128_slice c fuel l d 0 _ _ hw hu (by omega) (by simpa using hfuel)]
  simp only [bind_assoc, ok_bind, List.drop_zero]

/-- The number of vectors which `next` of strided iterator `k` of stride `s` delivers. -/
theorem stride_visits {s k len w : Nat} (hk : k < s) (hw : 0 < w) :
    let n := (len - 1 - k) / s / w
    (∀ i, i < n → k + s * (i * w + w) < len) ∧ ¬ k + s * (n * w + w) < len := by
  intro n
  have hs : 0 < s := by omega
  constructor
  · intro i hi
    have h1 : (i + 1) * w ≤ (len - 1 - k) / s := (Nat.le_div_iff_mul_le hw).mp hi
    have h2 := (Nat.le_div_iff_mul_le hs).mp h1
    rw [Nat.succ_mul, Nat.mul_comm] at h2
    have : 0 < s * (i * w + w) := Nat.mul_pos hs (by omega)
    omega
  · intro h
    have h1 : s * (n * w + w) ≤ len - 1 - k := by omega
    have h2 : (n + 1) * w ≤ (len - 1 - k) / s := by
      rw [Nat.le_div_iff_mul_le hs, Nat.succ_mul, Nat.mul_comm]; exact h1
    have h3 : n + 1 ≤ (len - 1 - k) / s / w := (Nat.le_div_iff_mul_le hw).mpr h2
    omega

theorem stride_runs [Packable α] (c : Cfg) (l : List α) {s k : Nat} (hk : k < s) (d : Vector α w)
    (hw : 0 < w) (hu : l.length + s * (w + 1) < c.usize) :
    ∃ it', Runs c (strideAt (⟨l⟩ : Slice α w) s k d)
      ((fullWindows w (strided s k l hk)).take ((l.length - 1 - k) / s / w)) (ok it') := by
  have hd := stride_driver (represents_slice c l) hk d hw hu
  obtain ⟨h1, h2⟩ := stride_visits (len := l.length) hk hw
  have := hd.runs_exact hw _ 0 (Nat.zero_le _) (by simpa using h1) (by simpa using h2)
  exact ⟨_, by simpa [strideAt] using this⟩

theorem stride_visits_le {s k len w : Nat} : (len - 1 - k) / s / w ≤ len / s / w :=
  Nat.div_le_div_right (Nat.div_le_div_right (by omega))

/-- **C128 is false for strided iterators**: the loop over iterator `k` visits the first
`(len - 1 - k) / s / width` vectors (integer divisions). -/
theorem C128_stride_exact [Packable α] (c : Cfg) (fuel : Nat) (l : List α) {s k : Nat} (hk : k < s)
    (d : Vector α w) (st : σ) (body : FnMut σ (Vector α w) Unit) (hw : 0 < w)
    (hu : l.length + s * (w + 1) < c.usize) (hfuel : l.length / s / w < fuel) :
    forVecs c body fuel (strideAt (⟨l⟩ : Slice α w) s k d) st =
      callAll body st ((fullWindows w (strided s k l hk)).take ((l.length - 1 - k) / s / w)) >>=
        fun q => ok q.2 := by
  obtain ⟨it', h⟩ := stride_runs c l hk d hw hu
  refine forVecs_runs body h fuel st ?_
  rw [List.length_take, fullWindows_length, strided_length]
  omega

theorem pred_div {s q r k : Nat} (hr : r < s) (hk : k < s) :
    (s * q + r - 1 - k) / s = if r ≤ k then q - 1 else q := by
  have hs : 0 < s := by omega
  split
  · next h =>
    cases q with
    | zero => rw [Nat.mul_zero, show 0 + r - 1 - k = 0 by omega, Nat.zero_div]
    | succ q =>
      rw [Nat.mul_succ, show s * q + s + r - 1 - k = s * q + (s + r - 1 - k) by omega,
        Nat.mul_add_div hs, Nat.div_eq_of_lt (by omega)]
      rfl
  · next h =>
    rw [show s * q + r - 1 - k = s * q + (r - 1 - k) by omega, Nat.mul_add_div hs,
      Nat.div_eq_of_lt (by omega)]
    rfl

/-- **C128**: the number of missed vectors is one or none; one if the elements fill the last
vector and the rest of the slice has no element for the iterator. -/
theorem C128_stride_missed {s k len w : Nat} (hk : k < s) (hw : 0 < w) :
    let full := len / s / w
    let visited := (len - 1 - k) / s / w
    visited = if len / s % w = 0 ∧ len % s ≤ k then full - 1 else full := by
  intro full visited
  have h1 := Nat.div_add_mod len s
  have h2 := Nat.mod_lt len (show 0 < s by omega)
  have h3 := Nat.div_add_mod (len / s) w
  have h4 := Nat.mod_lt (len / s) hw
  have key : (len - 1 - k) / s = if len % s ≤ k then len / s - 1 else len / s := by
    conv => lhs; rw [← h1]
    exact pred_div h2 hk
  have key2 : (len / s - 1) / w = if len / s % w = 0 then len / s / w - 1 else len / s / w := by
    have := pred_div (q := len / s / w) h4 hw
    rw [h3, Nat.sub_zero] at this
    simpa using this
  show (len - 1 - k) / s / w = _
  rw [key]
  by_cases h5 : len % s ≤ k
  · simp only [h5, if_true, and_true, key2]
    rfl
  · simp only [h5, if_false, and_false]
    rfl

/-- **C128** for strided iterators, the part which holds: if the elements do not fill the last
vector, or the slice ends with an incomplete group which has an element for the iterator, the loop
visits every complete vector. Missing: otherwise the last complete vector is not visited
(`C128_stride_loses`). -/
theorem C128_stride_partial [Packable α] (c : Cfg) (fuel : Nat) (l : List α) {s k : Nat}
    (hk : k < s) (d : Vector α w) (st : σ) (body : FnMut σ (Vector α w) Unit) (hw : 0 < w)
    (hu : l.length + s * (w + 1) < c.usize) (hfuel : l.length / s / w < fuel)
    (h : l.length / s % w ≠ 0 ∨ k < l.length % s) :
    forVecs c body fuel (strideAt (⟨l⟩ : Slice α w) s k d) st =
      callAll body st (fullWindows w (strided s k l hk)) >>= fun q => ok q.2 := by
  rw [C128_stride_exact c fuel l hk d st body hw hu hfuel, C128_stride_missed hk hw,
    if_neg (by omega), List.take_of_length_le (by rw [fullWindows_length, strided_length])]

/-- **C128**: if the elements fill the last vector and no further element follows, the loop does
not visit the last vector. -/
theorem C128_stride_loses [Packable α] (c : Cfg) (fuel : Nat) (l : List α) {s k : Nat}
    (hk : k < s) (d : Vector α w) (st : σ) (body : FnMut σ (Vector α w) Unit) (hw : 0 < w)
    (hu : l.length + s * (w + 1) < c.usize) (hfuel : l.length / s / w < fuel)
    (h1 : l.length / s % w = 0) (h2 : l.length % s ≤ k) :
    forVecs c body fuel (strideAt (⟨l⟩ : Slice α w) s k d) st =
      callAll body st (fullWindows w (strided s k l hk)).dropLast >>= fun q => ok q.2 := by
  rw [C128_stride_exact c fuel l hk d st body hw hu hfuel, C128_stride_missed hk hw,
    if_pos ⟨h1, h2⟩, List.dropLast_eq_take, fullWindows_length, strided_length]

/-- **C128 is false**: a loop over the even elements of `[1, 2, 3, 4]`, two lanes, which counts
vectors, counts none although `[1, 3]` is a complete vector. -/
theorem C128_stride_false :
    fullWindows 2 (strided 2 0 [1#8, 2, 3, 4] (by decide)) = [#v[1, 3]] ∧
    forVecs debug64 (fun (n : Nat) (_ : Vector (BitVec 8) 2) => ok ((), n + 1)) 9
      (strideAt (⟨[1#8, 2, 3, 4]⟩ : Slice _ 2) 2 0 #v[0#8, 0]) 0 = ok 0 := by
  constructor <;> decide +kernel

/-- **C128 is false for `SIMDAdapter`**: the loop visits the first half of the complete vectors,
rounded up. -/
theorem C128_adapter_exact (c : Cfg) (fuel : Nat) (l : List α) (d : Vector α w) (st : σ)
    (body : FnMut σ (Vector α w) Unit) (hw : 0 < w) (hu : 2 * l.length + 2 * w < c.usize)
    (hfuel : l.length / w < fuel) :
    forVecs c body fuel (simdAdapter l d) st =
      callAll body st ((fullWindows w l).take ((l.length / w + 1) / 2)) >>= fun q => ok q.2 := by
  obtain ⟨a', h, -⟩ := C30_adapter_exact c l d hw hu
  refine forVecs_runs body h fuel st ?_
  rw [List.length_take, fullWindows_length]
  omega

/-- **C128** for `SIMDAdapter`, the part which holds: at most one complete vector. Missing: more
than one (`C128_adapter_exact`). -/
theorem C128_adapter_partial (c : Cfg) (fuel : Nat) (l : List α) (d : Vector α w) (st : σ)
    (body : FnMut σ (Vector α w) Unit) (hw : 0 < w) (hu : 2 * l.length + 2 * w < c.usize)
    (hfuel : l.length / w < fuel) (h : l.length < 2 * w) :
    forVecs c body fuel (simdAdapter l d) st =
      callAll body st (fullWindows w l) >>= fun q => ok q.2 := by
  have h1 : l.length / w < 2 := (Nat.div_lt_iff_lt_mul hw).mpr h
  rw [C128_adapter_exact c fuel l d st body hw hu hfuel, List.take_of_length_le]
  rw [fullWindows_length]
  omega

/-- **C128 is false**: of two complete vectors the loop over an adapter visits one. -/
theorem C128_adapter_false :
    forVecs debug64 (fun (n : Nat) (_ : Vector (BitVec 8) 2) => ok ((), n + 1)) 9
      (simdAdapter [1#8, 2, 3, 4] #v[0, 0]) 0 = ok 1 := by decide +kernel

end

/-! ### Zips -/

section
variable {α β σ : Type} {w : Nat} [Packable α] [Packable β]

omit [Packable α] [Packable β] in
theorem fullWindows_two (xs : List α) (ys : List β) (h : xs.length = ys.length) :
    (fullWindows w (rows2 xs ys)).map (packRow (SIMDIter (Slice β w) β w × Unit)) =
      List.zipWith (fun u v => (u, v, ())) (fullWindows w xs) (fullWindows w ys) := by
  apply List.ext_getElem
  · simp [fullWindows_length, rows2, h]
  · intro i h1 h2
    simp only [List.getElem_map, List.getElem_zipWith, fullWindows, List.getElem_ofFn, packRow,
      LawfulRest.pack]
    congr 1
    · ext j hj; simp [rows2]
    · congr 1
      ext j hj; simp [rows2]

omit [Packable β] in
/-- **C128**, zips of slices: the loop visits the tuples of the complete vectors, in order. -/
theorem C128_zip (c : Cfg) (fuel : Nat) (xs : List α) (ys : List β) (dx : Vector α w)
    (dy : Vector β w) (st : σ) (body : FnMut σ (Vector α w × Vector β w × Unit) Unit)
    (h : xs.length = ys.length) (hw : 0 < w) (hu : xs.length + w < c.usize)
    (hfuel : xs.length / w < fuel) :
    (do
      let z ← zip c (simdIter xs dx) (simdIter ys dy, ())
      zforVecs c body fuel z st) =
      callAll body st
        (List.zipWith (fun u v => (u, v, ())) (fullWindows w xs) (fullWindows w ys)) >>=
        fun q => ok q.2 := by
  obtain ⟨h1, h2, h3⟩ := rows2_spec c xs ys dx dy 0 h hw hu
  have hz := zip_ok h2 hw h3 0
  have hrun := zip_runs_exact h2 hw h3 (by omega) (xs.length / w) 0 (Nat.zero_le _)
    (fun i hi => by
      have := (Nat.le_div_iff_mul_le hw).mp hi
      rw [Nat.succ_mul] at this
      omega)
    (fun hh => by
      have h5 : (xs.length / w + 1) * w ≤ xs.length := by rw [Nat.succ_mul]; omega
      have := (Nat.le_div_iff_mul_le hw).mpr h5
      omega)
  rw [List.drop_zero, List.take_of_length_le (by rw [fullWindows_length, h1]),
    fullWindows_two xs ys h] at hrun
  simp only [simdIter]
  rw [hz]
  simp only [ok_bind]
  exact zforVecs_runs body hrun fuel st (by simp [fullWindows_length, ← h]; exact hfuel)

/-- **C128 is false for zips of strided iterators**: the first iterator decides, so that the last
pair of complete vectors may be left out (`C128_stride_missed` says when). -/
theorem C128_zip_strides (c : Cfg) (fuel : Nat) (l : List α) {s k m : Nat} (hk : k < s) (hm : m < s)
    (dx dy : Vector α w) (st : σ) (body : FnMut σ (Vector α w × Vector α w × Unit) Unit)
    (hw : 0 < w) (hu : l.length + s * (w + 1) < c.usize) (hfuel : l.length / s / w < fuel) :
    (do
      let z ← zip c (strideAt (⟨l⟩ : Slice α w) s k dx) (strideAt (⟨l⟩ : Slice α w) s m dy, ())
      zforVecs c body fuel z st) =
      callAll body st
        ((List.zipWith (fun u v => (u, v, ())) (fullWindows w (strided s k l hk))
          (fullWindows w (strided s m l hm))).take ((l.length - 1 - k) / s / w)) >>=
        fun q => ok q.2 := by
  have h : (strided s k l hk).length = (strided s m l hm).length := by simp
  have hle := Nat.div_le_self l.length s
  have e1 : (rows2 (strided s k l hk) (strided s m l hm)).map Prod.fst = strided s k l hk := by
    apply List.ext_getElem <;> simp [rows2]
  have e2 : ((rows2 (strided s k l hk) (strided s m l hm)).map Prod.snd).map Prod.fst =
      strided s m l hm := by
    apply List.ext_getElem <;> simp [rows2]
  have e3 : (Vector.zipWith (fun a b => (a, b, ())) dx dy).map Prod.fst = dx := by
    ext i hi; simp
  have e4 : ((Vector.zipWith (fun a b => (a, b, ())) dx dy).map Prod.snd).map Prod.fst = dy := by
    ext i hi; simp
  have hd : Driver c (fun p => (⟨⟨l⟩, k + s * p, k, s, dx⟩ : PackedStride (Slice α w) α w))
      ((rows2 (strided s k l hk) (strided s m l hm)).map Prod.fst)
      ((Vector.zipWith (fun a b => (a, b, ())) dx dy).map Prod.fst)
      (fun p => k + s * (p + w) < l.length) := by
    rw [e1, e3]
    exact stride_driver (represents_slice c l) hk dx hw hu
  have hd2 := stride_driver (represents_slice c l) hm dy hw hu
  have hrep := represents_stride (represents_slice c l) hm m dy hw hu
  have hr : LawfulRest.Rep (w := w) c
      ((strideAt (⟨l⟩ : Slice α w) s m dy, ()) : PackedStride (Slice α w) α w × Unit)
      ((rows2 (strided s k l hk) (strided s m l hm)).map Prod.snd)
      ((Vector.zipWith (fun a b => (a, b, ())) dx dy).map Prod.snd) := by
    refine ⟨?_, trivial⟩
    rw [e2, e4]
    exact ⟨hrep, rfl, by simpa [strideAt] using hd2.len 0⟩
  have hz := zip_ok hd hw hr 0
  obtain ⟨h1, h2⟩ := stride_visits (len := l.length) hk hw
  have hlen : (rows2 (strided s k l hk) (strided s m l hm)).length = l.length / s := by
    simp [rows2]
  have hrun := zip_runs_exact hd hw hr (by omega) _ 0 (Nat.zero_le _) (by simpa using h1)
    (by simpa using h2)
  have e5 := fullWindows_two (w := w) (strided s k l hk) (strided s m l hm) h
  have e6 : (fullWindows w (rows2 (strided s k l hk) (strided s m l hm))).map
      (packRow (PackedStride (Slice α w) α w × Unit)) =
      List.zipWith (fun u v => (u, v, ())) (fullWindows w (strided s k l hk))
        (fullWindows w (strided s m l hm)) := e5
  rw [List.drop_zero, List.map_take, e6] at hrun
  simp only [Nat.mul_zero, Nat.add_zero] at hz
  rw [show strideAt (⟨l⟩ : Slice α w) s k dx = ⟨⟨l⟩, k, k, s, dx⟩ from rfl, hz]
  simp only [ok_bind]
  refine zforVecs_runs body hrun fuel st ?_
  simp only [List.length_take, List.length_zipWith, fullWindows_length, strided_length]
  omega

/-- **C128**, `stride_zip`: the loop visits the pairs of vectors of all complete groups of
`2 * width` elements. -/
theorem C128_stride_zip (c : Cfg) (fuel : Nat) (l : List α) (d : Vector α w) (st : σ)
    (body : FnMut σ (Vector α w × Vector α w) Unit) (hw : 0 < w) (hu : l.length + 2 * w < c.usize)
    (hfuel : l.length / 2 / w < fuel) :
    (do
      let z ← strideZip c (simdIter l d)
      zforVecs c body fuel z st) =
      callAll body st ((fullWindows w (pairsOf l)).map unzipV) >>= fun q => ok q.2 := by
  have h1 := Nat.div_add_mod l.length (2 * w)
  obtain ⟨z', h, -⟩ := strideZip_runs (represents_slice c l) d hw hu 0 (l.length / (2 * w)) 0
    (by rw [Nat.mul_comm] at h1; omega)
  simp only [strideZip, simdIter, SIMDIterable.scalarPos, ok_bind]
  simp only [Nat.zero_mul, List.drop_zero] at h
  refine zforVecs_runs body h fuel st ?_
  rw [List.length_map, fullWindows_length]
  simpa [pairsOf] using hfuel

end

/-! ### The unit tests of `src/stride.rs` -/

section
variable {α : Type} {w : Nat} [Packable α]

omit [Packable α] in
/-- A loop of assertions passes or panics. -/
theorem forM_assert (p : Nat → Prop) [DecidablePred p] (f : Nat → Res Unit) (is : List Nat)
    (h : ∀ i ∈ is, f i = if p i then ok () else panic) :
    is.forM f = if ∀ i ∈ is, p i then ok () else panic := by
  induction is with
  | nil => simp
  | cons i is ih =>
    show (f i >>= fun _ => is.forM f) = _
    rw [h i (by simp), ih fun j hj => h j (by simp [hj])]
    by_cases h1 : p i
    · simp [h1]
    · simp [h1]

omit [Packable α] in
theorem index_eq (l : List α) (i : Nat) :
    index l i = if h : i < l.length then ok l[i] else panic := by
  by_cases h : i < l.length <;> simp [index, h]

omit [Packable α] in
theorem assertSame_index [DecidableEq α] (l : List α) (i : Nat) (r : Res α)
    (hr : r = index l i ∨ (r = panic ∧ l.length ≤ i) ∨ ((∃ y, r = ok y) ∧ l.length ≤ i)) :
    (r >>= fun y => index l i >>= fun z => assertSame y z) =
      if i < l.length then ok () else panic := by
  rw [index_eq] at hr ⊢
  rcases hr with rfl | ⟨rfl, h⟩ | ⟨⟨y, rfl⟩, h⟩
  · by_cases h : i < l.length
    · simp [h, assertSame, assert]
    · simp [h]
  · simp [show ¬ i < l.length by omega]
  · simp [show ¬ i < l.length by omega]

theorem loadScalar_stride (c : Cfg) (x : List α) (p k s i : Nat) (d : Vector α w)
    (hx : x.length < c.usize) :
    let r := SIMDArray.loadScalar c (⟨⟨x⟩, p, k, s, d⟩ : PackedStride (Slice α w) α w) i
    r = index x (s * i + k) ∨ (r = panic ∧ x.length ≤ s * i + k) ∨
      ((∃ y, r = ok y) ∧ x.length ≤ s * i + k) := by
  intro r
  by_cases h : s * i + k < c.usize
  · left
    show SIMDArray.loadScalar c _ i = _
    simp only [SIMDArray.loadScalar]
    rw [umul_ok (by rw [Nat.mul_comm]; omega)]
    simp only [ok_bind]
    rw [uadd_ok (by rw [Nat.mul_comm]; omega)]
    simp only [ok_bind]
    rw [Nat.mul_comm, Nat.add_comm]
  · right
    have hr : r = panic ∨ ∃ y, r = ok y := by
      show SIMDArray.loadScalar c _ i = _ ∨ ∃ y, SIMDArray.loadScalar c _ i = _
      simp only [SIMDArray.loadScalar]
      have hi : ∀ j, index x j = panic ∨ ∃ y, index x j = ok y := by
        intro j
        rw [index_eq]
        by_cases h : j < x.length <;> simp [h]
      have ha : ∀ a b, uadd c a b = Res.panic ∨ ∃ y, uadd c a b = ok y := by
        intro a b
        unfold uadd
        split
        · exact .inr ⟨_, rfl⟩
        · cases c.debug
          · exact .inr ⟨_, rfl⟩
          · exact .inl rfl
      have hm : ∀ a b, umul c a b = Res.panic ∨ ∃ y, umul c a b = ok y := by
        intro a b
        unfold umul
        split
        · exact .inr ⟨_, rfl⟩
        · cases c.debug
          · exact .inr ⟨_, rfl⟩
          · exact .inl rfl
      rcases hm i s with e | ⟨y, e⟩
      · rw [e]; exact .inl rfl
      · rw [e]
        simp only [ok_bind]
        rcases ha k y with e2 | ⟨z, e2⟩
        · rw [e2]; exact .inl rfl
        · rw [e2]
          exact hi z
    rcases hr with hr | hr
    · exact .inl ⟨hr, by omega⟩
    · exact .inr ⟨hr, by omega⟩

/-- **C128**, test `scalar_load`: for any elements it passes if all indices are inside the slice,
and panics otherwise. -/
theorem C128_scalar_load [DecidableEq α] (c : Cfg) (x : List α) (d : Vector α w × Vector α w)
    (is : List Nat) (hx : x.length < c.usize) :
    strideScalarTest c x d is = if ∀ i ∈ is, 2 * i + 1 < x.length then ok () else panic := by
  simp only [strideScalarTest, strideTwo]
  rw [forM_assert (fun i => 2 * i < x.length) _ is fun i _ =>
      assertSame_index x (2 * i) _ (loadScalar_stride c x 0 0 2 i d.1 hx),
    forM_assert (fun i => 2 * i + 1 < x.length) _ is fun i _ =>
      assertSame_index x (2 * i + 1) _ (loadScalar_stride c x 1 1 2 i d.2 hx)]
  by_cases h : ∀ i ∈ is, 2 * i + 1 < x.length
  · rw [if_pos h, if_pos fun i hi => by have := h i hi; omega]
    rfl
  · rw [if_neg h]
    split <;> rfl

/-- **C128**, test `vector_load`: for any elements and any default vectors it passes if all loaded
vectors are inside the slice, and panics otherwise. -/
theorem C128_vector_load [DecidableEq α] (c : Cfg) (x : List α) (d : Vector α w × Vector α w)
    (is : List Nat) (hw : 0 < w) (hx : x.length < c.usize)
    (hu : c.debug = true ∨ ∀ i ∈ is, 1 + 2 * (i + (w - 1)) < c.usize) :
    strideLoadTest c x d is =
      if ∀ i ∈ is, 1 + 2 * (i + (w - 1)) < x.length then ok () else panic := by
  have key : ∀ k (dk : Vector α w), k ≤ 1 → ∀ i ∈ is,
      (SIMDArray.load c (⟨⟨x⟩, k, k, 2, dk⟩ : PackedStride (Slice α w) α w) i >>= fun v =>
        Packed.extract v 0 >>= fun y => index x (2 * i + k) >>= fun z => assertSame y z) =
      if k + 2 * (i + (w - 1)) < x.length then ok () else panic := by
    intro k dk hk i hi
    obtain ⟨h1, h2⟩ := C27_stride_load_partial c x k dk i (s := 2) (k := k) (by omega) hw hx
      (hu.imp_right fun h => by have := h i hi; omega)
    by_cases h : k + 2 * (i + (w - 1)) < x.length
    · rw [h1 h, if_pos h]
      simp only [ok_bind, Packed.extract, dif_pos hw, index_eq,
        dif_pos (show 2 * i + k < x.length by omega), assertSame]
      simp [assert, Nat.add_comm]
    · rw [h2 (by omega), if_neg h]
      rfl
  simp only [strideLoadTest, strideTwo]
  have k0 := forM_assert (fun i => 0 + 2 * (i + (w - 1)) < x.length) _ is (key 0 d.1 (by omega))
  simp only [Nat.add_zero] at k0
  rw [k0, forM_assert (fun i => 1 + 2 * (i + (w - 1)) < x.length) _ is (key 1 d.2 (by omega))]
  by_cases h : ∀ i ∈ is, 1 + 2 * (i + (w - 1)) < x.length
  · rw [if_pos h, if_pos fun i hi => by have := h i hi; omega]
    rfl
  · rw [if_neg h]
    split <;> rfl

omit [Packable α] in
theorem callAll_assertAll (P : α → Bool) (vs : List (Vector α w)) :
    (callAll (assertAll P) () vs >>= fun q => ok q.2) =
      if (lanes vs).all P then ok () else panic := by
  induction vs with
  | nil => rfl
  | cons v vs ih =>
    have hfold : ∀ (l : List α) (b : Bool), l.foldl (fun acc s => acc && P s) b = (b && l.all P) := by
      intro l
      induction l with
      | nil => intro b; simp
      | cons y l ih => intro b; simp [ih, Bool.and_assoc]
    have hv : assertAll P () v = if v.toList.all P then ok ((), ()) else panic := by
      simp only [assertAll, Packed.scalarReduce]
      rw [scalarReduceLoop_ok v _ w 0 true (by omega), List.drop_zero, foldlM_ok, hfold]
      simp only [ok_bind, Bool.true_and, assert]
      split <;> simp_all
    simp only [callAll, hv, lanes_cons, List.all_append]
    by_cases h : v.toList.all P
    · simp only [h, if_true, ok_bind, Bool.true_and, bind_assoc]
      exact ih
    · simp [h]

omit [Packable α] in
theorem lanes_take (n : Nat) (l : List α) (h : n ≤ l.length / w) (hw : 0 < w) :
    lanes ((fullWindows w l).take n) = l.take (n * w) := by
  have h1 : n * w ≤ l.length / w * w := Nat.mul_le_mul_right w h
  have h2 := Nat.div_mul_le_self l.length w
  have e := lanes_fullWindows hw l
  rw [← List.take_append_drop n (fullWindows w l), lanes_append, List.append_assoc] at e
  have hl : (lanes ((fullWindows w l).take n)).length = n * w := by
    rw [lanes_length, List.length_take, fullWindows_length, Nat.min_eq_left h]
  have e2 := congrArg (List.take (n * w)) e
  rwa [List.take_append_of_le_length (by omega), List.take_of_length_le (by omega)] at e2

/-- **C128**, test `vector_iter`: for any elements and any two predicates it passes exactly if `P`
holds for the first `(len - 1) / 2 / width * width` elements with even index, and `Q` for the first
`(len - 2) / 2 / width * width` elements with odd index. -/
theorem C128_vector_iter (c : Cfg) (fuel : Nat) (x : List α) (d : Vector α w × Vector α w)
    (P Q : α → Bool) (hw : 0 < w) (hu : x.length + 2 * (w + 1) < c.usize)
    (hfuel : x.length / 2 / w < fuel) :
    strideIterTest c fuel x d P Q =
      if ((strided 2 0 x (by omega)).take ((x.length - 1) / 2 / w * w)).all P ∧
        ((strided 2 1 x (by omega)).take ((x.length - 2) / 2 / w * w)).all Q
      then ok () else panic := by
  have key : ∀ k (hk : k < 2) (dk : Vector α w) (R : α → Bool),
      forVecs c (assertAll R) fuel (⟨⟨x⟩, k, k, 2, dk⟩ : PackedStride (Slice α w) α w) () =
        if ((strided 2 k x hk).take ((x.length - 1 - k) / 2 / w * w)).all R then ok () else panic := by
    intro k hk dk R
    have h := C128_stride_exact c fuel x hk dk () (assertAll R) hw hu hfuel
    rw [callAll_assertAll, lanes_take _ _ (by rw [strided_length]; exact stride_visits_le) hw] at h
    exact h
  simp only [strideIterTest, strideTwo]
  rw [key 0 (by omega), key 1 (by omega), Nat.sub_zero, Nat.sub_sub]
  by_cases h1 : ((strided 2 0 x (by omega)).take ((x.length - 1) / 2 / w * w)).all P = true
  · simp only [h1, if_true, true_and, ok_bind]
  · simp only [h1]
    simp

end

/-! ### The tests as they are -/

/-- The slice `1, 2, …, 16` of `vector_load` and `vector_iter`. -/
def oneToSixteen : List (BitVec 64) := [1, 2, 3, 4, 5, 6, 7, 8, 9, 10, 11, 12, 13, 14, 15, 16]

/-- The tests pass with two, four (and, where they have that many elements, sixteen and 32) lanes. -/
example : (∀ c ∈ [debug64, release64],
      strideScalarTest (w := 16) c [1#8, 2, 3, 4] (Packed.splat 0, Packed.splat 0) [0, 1] = ok () ∧
      strideScalarTest (w := 32) c [1#8, 2, 3, 4] (Packed.splat 0, Packed.splat 0) [0, 1] = ok () ∧
      strideLoadTest (w := 2) c oneToSixteen (Packed.splat 0, Packed.splat 0) [0, 1] = ok () ∧
      strideLoadTest (w := 4) c oneToSixteen (Packed.splat 0, Packed.splat 0) [0, 1] = ok ()) := by
  simp only [List.mem_cons, List.not_mem_nil, or_false, forall_eq_or_imp, forall_eq]
  refine ⟨⟨?_, ?_, ?_, ?_⟩, ⟨?_, ?_, ?_, ?_⟩⟩ <;>
    first
    | rw [C128_scalar_load _ _ _ _ (by decide)]; rfl
    | rw [C128_vector_load _ _ _ _ (by decide) (by decide) (by decide)]; rfl

/-- **C128**: `vector_iter` with the slice of the test accepts any predicates which hold for the
first six elements of each parity (two lanes), or the first four (four lanes): the last vector is
never looked at. -/
theorem C128_vector_iter_test (c : Cfg) (hc : c = debug64 ∨ c = release64) (P Q : BitVec 64 → Bool) :
    (strideIterTest (w := 2) c 9 oneToSixteen (Packed.splat 1, Packed.splat 2) P Q = ok () ↔
      (∀ x ∈ [1, 3, 5, 7, 9, 11], P x) ∧ ∀ x ∈ [2, 4, 6, 8, 10, 12], Q x) ∧
    (strideIterTest (w := 4) c 9 oneToSixteen (Packed.splat 1, Packed.splat 2) P Q = ok () ↔
      (∀ x ∈ [1, 3, 5, 7], P x) ∧ ∀ x ∈ [2, 4, 6, 8], Q x) := by
  have hu : oneToSixteen.length + 2 * (2 + 1) < c.usize ∧
      oneToSixteen.length + 2 * (4 + 1) < c.usize := by
    rcases hc with rfl | rfl <;> decide
  rw [C128_vector_iter c 9 oneToSixteen _ P Q (by decide) hu.1 (by decide),
    C128_vector_iter c 9 oneToSixteen _ P Q (by decide) hu.2 (by decide)]
  have e0 : strided 2 0 oneToSixteen (by decide) = [1, 3, 5, 7, 9, 11, 13, 15] := by decide +kernel
  have e1 : strided 2 1 oneToSixteen (by decide) = [2, 4, 6, 8, 10, 12, 14, 16] := by decide +kernel
  have e2 : oneToSixteen.length = 16 := rfl
  rw [e0, e1, e2]
  constructor <;> simp [and_assoc]

/-- The predicates of the test: it passes, and it would also pass if the last elements were even. -/
example : strideIterTest (w := 2) debug64 9 oneToSixteen (Packed.splat 1, Packed.splat 2)
      (fun s => s % 2 = 1) (fun s => s % 2 = 0) = ok () ∧
    strideIterTest (w := 2) debug64 9 (oneToSixteen.set 14 100) (Packed.splat 1, Packed.splat 2)
      (fun s => s % 2 = 1) (fun s => s % 2 = 0) = ok () := by
  constructor <;> decide +kernel

/-- A loop which sums up lanes visits all complete vectors of a slice, both pairs of vectors of a
`stride_zip`, and the tuples of a zip. -/
example : forVecs debug64 (fun (s : BitVec 8) (v : Vector (BitVec 8) 2) => ok ((), s + v[0] + v[1])) 9
      (simdIter [1#8, 2, 3, 4, 5] #v[0, 0]) 0 = ok 10 ∧
    (do
      let z ← strideZip debug64 (simdIter [1#8, 2, 3, 4, 5, 6, 7, 8] #v[0, 0])
      zforVecs debug64 (fun (s : BitVec 8) (v : Vector (BitVec 8) 2 × Vector (BitVec 8) 2) =>
        ok ((), s + v.1[0] + v.1[1])) 9 z 0) = ok 16 ∧
    (do
      let z ← zip debug64 (simdIter [1#8, 2] #v[0, 0]) (simdIter [3#8, 4] #v[0, 0], ())
      zforVecs debug64 (fun (s : BitVec 8) (v : Vector (BitVec 8) 2 × Vector (BitVec 8) 2 × Unit) =>
        ok ((), s + v.1[0] * v.2.1[1])) 9 z 0) = ok 4 := by
  refine ⟨?_, ?_, ?_⟩ <;> decide +kernel

/-- A mapped slice, strides with a following element (nothing missed), a zip of strides. -/
example : forVecs debug64 (fun (s : BitVec 8) (v : Vector (BitVec 8) 2) => ok ((), s + v[0])) 9
      (simdMap (simdIter [1#8, 2, 3, 4, 5] #v[0, 0]) () (pureFn fun v => v.map (· + 1))) 0 = ok 6 ∧
    forVecs debug64 (fun (s : BitVec 8) (v : Vector (BitVec 8) 2) => ok ((), s + v[0])) 9
      (strideAt (⟨[1#8, 2, 3, 4, 5]⟩ : Slice _ 2) 2 0 #v[0#8, 0]) 0 = ok 1 ∧
    (do
      let z ← zip debug64 (strideAt (⟨[1#8, 2, 3, 4]⟩ : Slice _ 2) 2 0 #v[0#8, 0])
        (strideAt (⟨[1#8, 2, 3, 4]⟩ : Slice _ 2) 2 1 #v[0#8, 0], ())
      zforVecs debug64 (fun (s : Nat) (_ : Vector (BitVec 8) 2 × Vector (BitVec 8) 2 × Unit) =>
        ok ((), s + 1)) 9 z 0) = ok 0 := by
  refine ⟨?_, ?_, ?_⟩ <;> decide +kernel

end Faster
