import Verif.Props.Unrolled
import Verif.Props.EndToEnd
/-
C170: unrolled loops with several accumulators.
-/
namespace Faster
open Res SIMDSized SIMDIterable SIMDIterator

/-- `for (a, v) in accs.iter_mut().zip(chunk) { *a = op(*a, g(v)) }`. -/
def zipAcc {A V : Type} (op : A → A → A) (g : V → A) : List A → List V → List A
  | a :: as, v :: vs => op a (g v) :: zipAcc op g as vs
  | as, _ => as

section
variable {A V : Type} {op : A → A → A} {e : A} {g : V → A}

theorem zipAcc_length (as : List A) (vs : List V) : (zipAcc op g as vs).length = as.length := by
  induction as generalizing vs with
  | nil => rfl
  | cons a as ih => cases vs <;> simp [zipAcc, ih]

theorem foldl_start (ha : ∀ x y z, op (op x y) z = op x (op y z)) (l : List A) :
    ∀ x y, l.foldl op (op x y) = op x (l.foldl op y) := by
  induction l with
  | nil => intro x y; rfl
  | cons z l ih => intro x y; rw [List.foldl_cons, List.foldl_cons, ha, ih]

/-- What the accumulators have together. -/
theorem zipAcc_total (ha : ∀ x y z, op (op x y) z = op x (op y z)) (hc : ∀ x y, op x y = op y x) (as : List A)
    (vs : List V) (h : vs.length ≤ as.length) :
    (zipAcc op g as vs).foldl op e = (vs.map g).foldl op (as.foldl op e) := by
  induction as generalizing vs with
  | nil => cases vs with
    | nil => rfl
    | cons v vs => simp at h
  | cons a as ih => cases vs with
    | nil => rfl
    | cons v vs =>
      have h' := ih vs (by simpa using h)
      simp only [zipAcc, List.map_cons, List.foldl_cons]
      have h2 : op (op a (as.foldl op e)) (g v) = op (op a (g v)) (as.foldl op e) := by
        rw [ha, hc (as.foldl op e), ← ha]
      rw [hc e (op a (g v)), foldl_start ha _ _ e, h', hc e a, foldl_start ha as a e, h2,
        foldl_start ha _ (op a (g v))]

end

section
variable {T α A : Type} {w : Nat} [SIMDSized T] [SIMDIterator T α w] {c : Cfg}

/-- The loop over the chunks of `unroll` (src/iters.rs:386-403) with one accumulator for every place. -/
def accLoop (c : Cfg) (op : A → A → A) (g : Vector α w → A) :
    (fuel : Nat) → Unrolled T α w → List A → Res (Unrolled T α w × List A)
  | 0, _, _ => hang
  | fuel + 1, u, accs => do
    let (r, u) ← Unrolled.next c u
    match r with
    | none => ok (u, accs)
    | some ref => accLoop c op g fuel u (zipAcc op g accs (ref.read u))

/-- `m` accumulators which begin with `e`; after the loop they are combined, and with them what `end` returns. -/
def unrolledAccs [Packable α] (c : Cfg) (fuel amt m : Nat) (it : T) (op : A → A → A) (e : A) (g : Vector α w → A) :
    Res (T × A) := do
  let u ← unroll it amt
  let (u, accs) ← accLoop c op g fuel u (List.replicate m e)
  let (r, it) ← end_ c u.iter
  match r with
  | some (v, _) => ok (it, op (accs.foldl op e) (g v))
  | none => ok (it, accs.foldl op e)

theorem accLoop_runs {op : A → A → A} {e : A} {g : Vector α w → A} (hassoc : ∀ x y z, op (op x y) z = op x (op y z))
    (hcomm : ∀ x y, op x y = op y x) {it' : T} (hend : next c it' = ok (none, it'))
    (amt : Nat) (ha0 : 0 < amt) (ha : amt ≤ 8) : ∀ (fuel : Nat) (it : T) (vs : List (Vector α w))
    (s : Vector (Vector α w) 8) (accs : List A), amt ≤ accs.length → Runs c it vs (ok it') → vs.length < fuel →
    ∃ s' accs', accLoop c op g fuel ⟨it, amt, s⟩ accs = ok (⟨it', amt, s'⟩, accs') ∧
      accs'.foldl op e = (vs.map g).foldl op (accs.foldl op e) := by
  intro fuel
  induction fuel with
  | zero => intro it vs s accs hm h hf; omega
  | succ fuel ih =>
    intro it vs s accs hm h hf
    by_cases hv : vs = []
    · subst hv
      refine ⟨s, accs, ?_, rfl⟩
      obtain ⟨k, rfl⟩ : ∃ k, amt = k + 1 := ⟨amt - 1, by omega⟩
      generalize hr : (ok it' : Res T) = r at h
      cases h with
      | @done _ it2 h =>
        cases hr
        simp [accLoop, Unrolled.next, Unrolled.nextLoop, h]
      | @fail _ r h hf' =>
        cases r with
        | ok a => exact absurd rfl (hf' a)
        | _ => simp [castFail] at hr
    · obtain ⟨it1, s1, e1, e2, e3⟩ := unrolled_next hend h amt s ha0 ha
      have hlen : 0 < vs.length := List.length_pos_iff.mpr hv
      obtain ⟨s', accs', e4, e5⟩ := ih it1 (vs.drop amt) s1 (zipAcc op g accs (vs.take amt))
        (by rw [zipAcc_length]; exact hm) e2 (by simp; omega)
      refine ⟨s', accs', ?_, ?_⟩
      · simp only [accLoop, e1, ok_bind, if_neg hv, ScratchRef.read, e3, e4]
      · rw [e5, zipAcc_total hassoc hcomm _ _ (by rw [List.length_take]; omega), ← List.foldl_append,
          ← List.map_append, List.take_append_drop]

/-- **C170** for every iterator which delivers `vs` and then keeps returning `None`: several accumulators give what one
gives. What they begin with need not be neutral. -/
theorem C170_reduce [Packable α] {op : A → A → A} {e : A} {g : Vector α w → A}
    (hassoc : ∀ x y z, op (op x y) z = op x (op y z)) (hcomm : ∀ x y, op x y = op y x) (he : op e e = e)
    {it it' : T} {vs : List (Vector α w)} (hend : next c it' = ok (none, it')) (h : Runs c it vs (ok it'))
    (amt m : Nat) (ha0 : 0 < amt) (ha : amt ≤ 8) (hm : amt ≤ m) (fuel : Nat) (hf : vs.length < fuel) :
    unrolledAccs c fuel amt m it op e g = (do
      let (it, acc, _) ← simdReduce c fuel it e () (fun _ acc v => ok (op acc (g v), ()))
      ok (it, acc)) := by
  obtain ⟨s', accs', e1, e2⟩ := accLoop_runs (g := g) (e := e) hassoc hcomm hend amt ha0 ha fuel it vs
    (Vector.replicate 8 Packed.default) (List.replicate m e) (by simpa using hm) h hf
  have hu : (unroll it amt : Res (Unrolled T α w)) = ok ⟨it, amt, Vector.replicate 8 Packed.default⟩ := by
    simp [unroll, ha]
  have hr : (List.replicate m e).foldl op e = e := by
    clear hm e1 e2
    induction m with
    | zero => rfl
    | succ m ih => rw [List.replicate_succ, List.foldl_cons, he, ih]
  have hfold : ∀ (vs : List (Vector α w)) (a : A),
      vs.foldlM (fun (p : A × Unit) v => (ok (op p.1 (g v), ()) : Res (A × Unit))) (a, ()) =
        ok ((vs.map g).foldl op a, ()) := by
    intro vs
    induction vs with
    | nil => intro a; rfl
    | cons v vs ih => intro a; rw [List.foldlM_cons, ok_bind, ih]; rfl
  rw [hr] at e2
  unfold unrolledAccs simdReduce
  rw [hu, reduceLoop_runs _ h fuel e () hf, hfold]
  simp only [ok_bind, e1, e2]
  rcases end_ c it' with ⟨_ | ⟨v, k⟩, it2⟩ | _ | _ | _ <;> rfl

/-- **C170** for every iterator described by a `Driver`, such as slices and strides. -/
theorem C170_driver [Packable α] {op : A → A → A} {e : A} {g : Vector α w → A}
    (hassoc : ∀ x y z, op (op x y) z = op x (op y z)) (hcomm : ∀ x y, op x y = op y x) (he : op e e = e)
    {S : Nat → T} {l : List α} {d : Vector α w} {more : Nat → Prop} (h : Driver c S l d more) (hw : 0 < w)
    (amt m : Nat) (ha0 : 0 < amt) (ha : amt ≤ 8) (hm : amt ≤ m) (fuel : Nat) (hf : l.length / w < fuel) :
    unrolledAccs c fuel amt m (S 0) op e g = (do
      let (it, acc, _) ← simdReduce c fuel (S 0) e () (fun _ acc v => ok (op acc (g v), ()))
      ok (it, acc)) := by
  obtain ⟨n, hr, hs, hc⟩ := h.runs_from hw 0 (Nat.zero_le _)
  simp only [List.drop_zero, Nat.zero_add] at hr hs hc
  obtain ⟨h1, h2, -⟩ := Driver.count_cases hw hc
  exact C170_reduce hassoc hcomm he (h.next_none _ h2 hs) hr amt m ha0 ha hm fuel
    (by rw [List.length_take, fullWindows_length]; omega)

end

/-- **C170** for strides of slices. -/
theorem C170_stride {α A : Type} [Packable α] {w : Nat} {c : Cfg} {op : A → A → A} {e : A} {g : Vector α w → A}
    (hassoc : ∀ x y z, op (op x y) z = op x (op y z)) (hcomm : ∀ x y, op x y = op y x) (he : op e e = e)
    (l : List α) {s k : Nat} (hk : k < s) (d : Vector α w) (amt m fuel : Nat) (hw : 0 < w)
    (hu : l.length + s * (w + 1) < c.usize) (ha0 : 0 < amt) (ha : amt ≤ 8) (hm : amt ≤ m)
    (hf : (strided s k l hk).length / w < fuel) :
    unrolledAccs c fuel amt m (strideAt (⟨l⟩ : Slice α w) s k d) op e g = (do
      let (it, acc, _) ← simdReduce c fuel (strideAt (⟨l⟩ : Slice α w) s k d) e ()
        (fun _ acc v => ok (op acc (g v), ()))
      ok (it, acc)) :=
  C170_driver hassoc hcomm he (stride_driver (represents_slice c l) hk d hw hu) hw amt m ha0 ha hm fuel hf

/-- **C170** for slices, at every position. -/
theorem C170_slice {α A : Type} [Packable α] {w : Nat} {c : Cfg} {op : A → A → A} {e : A} {g : Vector α w → A}
    (hassoc : ∀ x y z, op (op x y) z = op x (op y z)) (hcomm : ∀ x y, op x y = op y x) (he : op e e = e)
    (data : List α) (d : Vector α w) (p amt m fuel : Nat) (hw : 0 < w) (hlen : data.length + w < c.usize)
    (hp : p + w < c.usize) (ha0 : 0 < amt) (ha : amt ≤ 8) (hm : amt ≤ m) (hf : (data.length - p) / w < fuel) :
    unrolledAccs c fuel amt m (⟨p, ⟨data⟩, d⟩ : SIMDIter (Slice α w) α w) op e g = (do
      let (it, acc, _) ← simdReduce c fuel (⟨p, ⟨data⟩, d⟩ : SIMDIter (Slice α w) α w) e ()
        (fun _ acc v => ok (op acc (g v), ()))
      ok (it, acc)) := by
  have hr := represents_slice (w := w) c data
  have hd := Nat.div_add_mod (data.length - p) w
  have hm' := Nat.mod_lt (data.length - p) hw
  rw [Nat.mul_comm] at hd
  exact C170_reduce hassoc hcomm he
    (simdIter_next_none hr (p := p + (data.length - p) / w * w) (d := d) (by omega) (by omega))
    (simdIter_runs hr d hw hlen p hp) amt m ha0 ha hm fuel
    (by rw [fullWindows_length, List.length_drop]; exact hf)

/-- **C170** for sums: with any number of accumulators the total is the sum of the elements, for every version of
`sum`. -/
theorem C170_sum {n w : Nat} {signed : Bool} {F : Vector (BitVec n) w → Res (BitVec n)} (hF : SumOp signed F)
    (c : Cfg) (fuel amt m : Nat) (data : List (BitVec n)) (hw : 0 < w) (hlen : data.length + w < c.usize)
    (ha0 : 0 < amt) (ha : amt ≤ 8) (hm : amt ≤ m) (hfuel : data.length / w < fuel) :
    (do
      let (_, acc) ← unrolledAccs c fuel amt m (simdIter (w := w) data (Packed.splat 0))
        (fun a b => a.zipWith (· + ·) b) (Packed.splat 0) id
      F acc) = ok (BitVec.ofInt n (data.map (num signed)).sum) := by
  rw [← C71_sum hF c fuel data hw hlen hfuel]
  have h := C170_slice (c := c) (op := fun a b : Vector (BitVec n) w => a.zipWith (· + ·) b) (e := Packed.splat 0)
    (g := id) (by intro x y z; ext i hi; simp [BitVec.add_assoc]) (by intro x y; ext i hi; simp [BitVec.add_comm])
    (by ext i hi; simp [Packed.splat]) data (Packed.splat 0) 0 amt m fuel hw hlen (by omega) ha0 ha hm
    (by simpa using hfuel)
  change unrolledAccs c fuel amt m (simdIter (w := w) data (Packed.splat 0)) _ _ _ = _ at h
  rw [h, bind_assoc]
  rfl

/-- Eleven elements, two lanes, chunks of three vectors. With fewer accumulators than vectors in a chunk, vectors are
lost. -/
example : (do
      let (_, acc) ← unrolledAccs release64 9 3 3 (simdIter (w := 2) [1#8, 2, 3, 4, 5, 6, 7, 8, 9, 10, 11] #v[0, 0])
        (fun a b => a.zipWith (· + ·) b) #v[0, 0] id
      ok acc) = ok #v[25, 41] ∧ (do
      let (_, acc) ← unrolledAccs release64 9 3 2 (simdIter (w := 2) [1#8, 2, 3, 4, 5, 6, 7, 8, 9, 10, 11] #v[0, 0])
        (fun a b => a.zipWith (· + ·) b) #v[0, 0] id
      ok acc) = ok #v[20, 35] := by decide +kernel

/-- The operation has to be associative: saturating sums of `i8` depend on the number of accumulators. -/
theorem C170_saturating :
    let it := simdIter (w := 1) [100#8, 100, -100, -100] #v[0]
    let op := fun a b : Vector (BitVec 8) 1 => a.zipWith (satAddScalar .i) b
    (do let (_, acc) ← unrolledAccs release64 9 2 2 it op #v[0] id; ok acc) = ok #v[0] ∧
    (do let (_, acc, _) ← simdReduce release64 9 it #v[0] () (fun _ acc v => ok (op acc v, ())); ok acc) =
      ok #v[-73] := by decide +kernel

end Faster
