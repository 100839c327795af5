import Verif.Props.Views
import Verif.Props.Stride
/-
C169: unrolled loops over all vectors of a collection.
-/
namespace Faster
open Res SIMDSized SIMDIterable SIMDIterator

section
variable {T α A σ : Type} {w : Nat} [SIMDSized T] [SIMDIterator T α w] {c : Cfg}

/-- `for chunk in u { for v in chunk { acc = f(acc, v) } }` for `u = it.unroll(amt)` (src/iters.rs:63-70,
386-403); the closure has a state. -/
def unrollFold (c : Cfg) (f : σ → A → Vector α w → Res (A × σ)) :
    (fuel : Nat) → Unrolled T α w → A → σ → Res (Unrolled T α w × A × σ)
  | 0, _, _, _ => hang
  | fuel + 1, u, acc, st => do
    let (r, u) ← Unrolled.next c u
    match r with
    | none => ok (u, acc, st)
    | some ref => do
      let p ← (ref.read u).foldlM (fun (p : A × σ) v => f p.2 p.1 v) (acc, st)
      unrollFold c f fuel u p.1 p.2

/-- The loop, followed by the closure on what `end` returns, as in `simd_reduce` (src/iters.rs:157-167). -/
def unrolledReduce [Packable α] (c : Cfg) (fuel amt : Nat) (it : T) (start : A) (st : σ)
    (f : σ → A → Vector α w → Res (A × σ)) : Res (T × A × σ) := do
  let u ← unroll it amt
  let (u, acc, st) ← unrollFold c f fuel u start st
  let (r, it) ← end_ c u.iter
  match r with
  | some (v, _) =>
    let (acc, st) ← f st acc v
    ok (it, acc, st)
  | none => ok (it, acc, st)

/-- The loop calls the closure on all vectors which `next` delivers. -/
theorem unrollFold_runs {it' : T} (hend : next c it' = ok (none, it')) (amt : Nat) (ha0 : 0 < amt) (ha : amt ≤ 8)
    (f : σ → A → Vector α w → Res (A × σ)) : ∀ (fuel : Nat) (it : T) (vs : List (Vector α w))
    (s : Vector (Vector α w) 8) (acc : A) (st : σ), Runs c it vs (ok it') → vs.length < fuel →
    ∃ s', unrollFold c f fuel ⟨it, amt, s⟩ acc st =
      vs.foldlM (fun (p : A × σ) v => f p.2 p.1 v) (acc, st) >>= fun p => ok (⟨it', amt, s'⟩, p.1, p.2) := by
  intro fuel
  induction fuel with
  | zero => intro it vs s acc st h hf; omega
  | succ fuel ih =>
    intro it vs s acc st h hf
    by_cases hv : vs = []
    · subst hv
      refine ⟨s, ?_⟩
      obtain ⟨k, rfl⟩ : ∃ k, amt = k + 1 := ⟨amt - 1, by omega⟩
      generalize hr : (ok it' : Res T) = r at h
      cases h with
      | @done _ it2 h =>
        cases hr
        simp [unrollFold, Unrolled.next, Unrolled.nextLoop, h]
      | @fail _ r h hf' =>
        cases r with
        | ok a => exact absurd rfl (hf' a)
        | _ => simp [castFail] at hr
    · obtain ⟨it1, s1, e1, e2, e3⟩ := unrolled_next hend h amt s ha0 ha
      have hlen : 0 < vs.length := List.length_pos_iff.mpr hv
      rcases hfold : (vs.take amt).foldlM (fun (p : A × σ) v => f p.2 p.1 v) (acc, st) with p | _ | _ | _
      · obtain ⟨s', e4⟩ := ih it1 (vs.drop amt) s1 p.1 p.2 e2 (by simp; omega)
        refine ⟨s', ?_⟩
        conv => rhs; rw [← List.take_append_drop amt vs, List.foldlM_append, hfold]
        simp only [unrollFold, e1, ok_bind, if_neg hv, ScratchRef.read, e3, hfold, e4]
      all_goals
        refine ⟨s, ?_⟩
        conv => rhs; rw [← List.take_append_drop amt vs, List.foldlM_append, hfold]
        simp only [unrollFold, e1, ok_bind, if_neg hv, ScratchRef.read, e3, hfold]
        rfl

/-- **C169** for every iterator which delivers `vs` and then keeps returning `None`: an unrolled loop and `end` do
what `simd_reduce` does. -/
theorem C169_reduce [Packable α] {it it' : T} {vs : List (Vector α w)} (hend : next c it' = ok (none, it'))
    (h : Runs c it vs (ok it')) (amt : Nat) (ha0 : 0 < amt) (ha : amt ≤ 8) (fuel : Nat) (hf : vs.length < fuel)
    (start : A) (st : σ) (f : σ → A → Vector α w → Res (A × σ)) :
    unrolledReduce c fuel amt it start st f = simdReduce c fuel it start st f := by
  obtain ⟨s', e⟩ := unrollFold_runs hend amt ha0 ha f fuel it vs (Vector.replicate 8 Packed.default) start st h hf
  have hu : (unroll it amt : Res (Unrolled T α w)) = ok ⟨it, amt, Vector.replicate 8 Packed.default⟩ := by
    simp [unroll, ha]
  unfold unrolledReduce simdReduce
  rw [hu, reduceLoop_runs f h fuel start st hf]
  simp only [ok_bind, e, bind_assoc]
  rfl

/-- **C169** for every iterator described by a `Driver`, such as slices and strides. -/
theorem C169_driver [Packable α] {S : Nat → T} {l : List α} {d : Vector α w} {more : Nat → Prop}
    (h : Driver c S l d more) (hw : 0 < w) (amt : Nat) (ha0 : 0 < amt) (ha : amt ≤ 8) (fuel : Nat)
    (hf : l.length / w < fuel) (start : A) (st : σ) (f : σ → A → Vector α w → Res (A × σ)) :
    unrolledReduce c fuel amt (S 0) start st f = simdReduce c fuel (S 0) start st f := by
  obtain ⟨n, hr, hs, hc⟩ := h.runs_from hw 0 (Nat.zero_le _)
  simp only [List.drop_zero, Nat.zero_add] at hr hs hc
  obtain ⟨h1, h2, -⟩ := Driver.count_cases hw hc
  exact C169_reduce (h.next_none _ h2 hs) hr amt ha0 ha fuel
    (by rw [List.length_take, fullWindows_length]; omega) start st f

/-- One chunk after the other, each from an own `unroll` with its own amount, then `simd_reduce` on the rest. -/
def chunksReduce [Packable α] (c : Cfg) (fuel : Nat) (f : σ → A → Vector α w → Res (A × σ)) :
    (amts : List Nat) → T → A → σ → Res (T × A × σ)
  | [], it, acc, st => simdReduce c fuel it acc st f
  | amt :: amts, it, acc, st => do
    let u ← unroll it amt
    let (r, u) ← Unrolled.next c u
    match r with
    | none => chunksReduce c fuel f amts u.iter acc st
    | some ref => do
      let p ← (ref.read u).foldlM (fun (p : A × σ) v => f p.2 p.1 v) (acc, st)
      chunksReduce c fuel f amts u.iter p.1 p.2

/-- **C169**: an unrolled loop can be left after any chunk, and continued with other amounts or without `unroll`:
no vector is lost or seen twice. -/
theorem C169_mixed [Packable α] {it' : T} (hend : next c it' = ok (none, it')) (fuel : Nat)
    (f : σ → A → Vector α w → Res (A × σ)) : ∀ (amts : List Nat) (it : T) (vs : List (Vector α w)) (acc : A)
    (st : σ), (∀ a ∈ amts, a ≤ 8) → Runs c it vs (ok it') → vs.length < fuel →
    chunksReduce c fuel f amts it acc st = simdReduce c fuel it acc st f := by
  intro amts
  induction amts with
  | nil => intros; rfl
  | cons amt amts ih =>
    intro it vs acc st ha h hf
    have ha8 := ha amt (by simp)
    have hrest : ∀ a ∈ amts, a ≤ 8 := fun a h => ha a (List.mem_cons_of_mem _ h)
    have hu : (unroll it amt : Res (Unrolled T α w)) = ok ⟨it, amt, Vector.replicate 8 Packed.default⟩ := by
      simp [unroll, ha8]
    by_cases h0 : amt = 0
    · subst h0
      simp only [chunksReduce, hu, ok_bind, Unrolled.next, Unrolled.nextLoop]
      exact ih it vs acc st hrest h hf
    · obtain ⟨it1, s1, e1, e2, e3⟩ := unrolled_next hend h amt (Vector.replicate 8 Packed.default) (by omega) ha8
      have hsim : ∀ (it : T) (ws : List (Vector α w)) (acc : A) (st : σ), Runs c it ws (ok it') →
          ws.length < fuel → simdReduce c fuel it acc st f =
            ws.foldlM (fun (p : A × σ) v => f p.2 p.1 v) (acc, st) >>= fun p =>
              simdReduce c fuel it' p.1 p.2 f := by
        intro it ws acc st h hf
        have hn : Runs c it' [] (ok it') := .done hend
        unfold simdReduce
        rw [reduceLoop_runs f h fuel acc st hf]
        simp only [reduceLoop_runs f hn fuel _ _ (show ([] : List (Vector α w)).length < fuel by simp; omega),
          bind_assoc, ok_bind, List.foldlM_nil]
        rfl
      rw [hsim it vs acc st h hf]
      conv => rhs; rw [← List.take_append_drop amt vs, List.foldlM_append, bind_assoc]
      simp only [chunksReduce, hu, ok_bind, e1]
      by_cases hv : vs = []
      · subst hv
        simp only [if_pos]
        simp only [List.drop_nil] at e2
        rw [ih it1 [] acc st hrest e2 hf, hsim it1 [] acc st e2 hf, List.take_nil, List.drop_nil]
        rfl
      · simp only [if_neg hv, ScratchRef.read, e3]
        congr 1
        funext p
        have hl : (vs.drop amt).length < fuel := by rw [List.length_drop]; omega
        rw [ih it1 _ p.1 p.2 hrest e2 hl, hsim it1 _ p.1 p.2 e2 hl]

/-- **C169**: with chunks of no vectors the loop does nothing. -/
theorem C169_zero (fuel : Nat) (it : T) (s : Vector (Vector α w) 8) (acc : A) (st : σ)
    (f : σ → A → Vector α w → Res (A × σ)) :
    unrollFold c f (fuel + 1) ⟨it, 0, s⟩ acc st = ok (⟨it, 0, s⟩, acc, st) := rfl

end

variable {α A σ : Type} [Packable α] {w : Nat} {c : Cfg}

/-- **C169** for slices, at every position. -/
theorem C169_slice (data : List α) (d : Vector α w) (p amt fuel : Nat) (hw : 0 < w)
    (hlen : data.length + w < c.usize) (hp : p + w < c.usize) (ha0 : 0 < amt) (ha : amt ≤ 8)
    (hf : (data.length - p) / w < fuel) (start : A) (st : σ) (f : σ → A → Vector α w → Res (A × σ)) :
    unrolledReduce c fuel amt (⟨p, ⟨data⟩, d⟩ : SIMDIter (Slice α w) α w) start st f =
      simdReduce c fuel (⟨p, ⟨data⟩, d⟩ : SIMDIter (Slice α w) α w) start st f := by
  have hr := represents_slice (w := w) c data
  have hd := Nat.div_add_mod (data.length - p) w
  have hm := Nat.mod_lt (data.length - p) hw
  rw [Nat.mul_comm] at hd
  exact C169_reduce (simdIter_next_none hr (p := p + (data.length - p) / w * w) (d := d) (by omega) (by omega))
    (simdIter_runs hr d hw hlen p hp) amt ha0 ha fuel (by rw [fullWindows_length, List.length_drop]; exact hf)
    start st f

/-- **C169** for slices: chunks of several sizes, then `simd_reduce`. -/
theorem C169_mixed_slice (data : List α) (d : Vector α w) (p fuel : Nat) (hw : 0 < w)
    (hlen : data.length + w < c.usize) (hp : p + w < c.usize) (amts : List Nat) (ha : ∀ a ∈ amts, a ≤ 8)
    (hf : (data.length - p) / w < fuel) (start : A) (st : σ) (f : σ → A → Vector α w → Res (A × σ)) :
    chunksReduce c fuel f amts (⟨p, ⟨data⟩, d⟩ : SIMDIter (Slice α w) α w) start st =
      simdReduce c fuel (⟨p, ⟨data⟩, d⟩ : SIMDIter (Slice α w) α w) start st f := by
  have hr := represents_slice (w := w) c data
  have hd := Nat.div_add_mod (data.length - p) w
  have hm := Nat.mod_lt (data.length - p) hw
  rw [Nat.mul_comm] at hd
  exact C169_mixed (simdIter_next_none hr (p := p + (data.length - p) / w * w) (d := d) (by omega) (by omega))
    fuel f amts _ _ start st ha (simdIter_runs hr d hw hlen p hp)
    (by rw [fullWindows_length, List.length_drop]; exact hf)

/-- **C169** for strides of slices. -/
theorem C169_stride (l : List α) {s k : Nat} (hk : k < s) (d : Vector α w) (amt fuel : Nat) (hw : 0 < w)
    (hu : l.length + s * (w + 1) < c.usize) (ha0 : 0 < amt) (ha : amt ≤ 8)
    (hf : (strided s k l hk).length / w < fuel) (start : A) (st : σ) (f : σ → A → Vector α w → Res (A × σ)) :
    unrolledReduce c fuel amt (strideAt (⟨l⟩ : Slice α w) s k d) start st f =
      simdReduce c fuel (strideAt (⟨l⟩ : Slice α w) s k d) start st f :=
  C169_driver (stride_driver (represents_slice c l) hk d hw hu) hw amt ha0 ha fuel hf start st f

/-- **C169**: the calls which a complete unrolled pass makes; the loop alone sees the full vectors only. -/
theorem C169_calls (data : List α) (d : Vector α w) (amt fuel : Nat) (hw : 0 < w)
    (hlen : data.length + w < c.usize) (ha0 : 0 < amt) (ha : amt ≤ 8) (hf : data.length / w < fuel) (start : A)
    (st : σ) (f : σ → A → Vector α w → Res (A × σ)) :
    (unrolledReduce c fuel amt (simdIter data d) start st f = (do
      let (acc, st') ← (calls w d data).foldlM (fun (acc, st) v => f st acc v) (start, st)
      ok (⟨data.length, ⟨data⟩, d⟩, acc, st'))) ∧
    ((do
      let u ← unroll (simdIter data d) amt
      let (_, acc, st') ← unrollFold c f fuel u start st
      ok (acc, st')) = (fullWindows w data).foldlM (fun (p : A × σ) v => f p.2 p.1 v) (start, st)) := by
  have hr := represents_slice (w := w) c data
  have hd := Nat.div_add_mod data.length w
  have hm := Nat.mod_lt data.length hw
  rw [Nat.mul_comm] at hd
  constructor
  · rw [← C03_reduce_fold c fuel data d start st f hw hlen hf]
    exact C169_slice data d 0 amt fuel hw hlen (by omega) ha0 ha (by simpa using hf) start st f
  · have h1 := simdIter_runs hr d hw hlen 0 (by omega)
    simp only [List.drop_zero, Nat.zero_add, Nat.sub_zero] at h1
    obtain ⟨s', e⟩ := unrollFold_runs (simdIter_next_none hr (p := data.length / w * w) (d := d) (by omega)
      (by omega)) amt ha0 ha f fuel (simdIter data d) _ (Vector.replicate 8 Packed.default) start st h1
      (by rw [fullWindows_length]; exact hf)
    have hu : (unroll (simdIter data d) amt : Res (Unrolled (SIMDIter (Slice α w) α w) α w)) =
        ok ⟨simdIter data d, amt, Vector.replicate 8 Packed.default⟩ := by
      simp [unroll, ha]
    rw [hu]
    simp only [ok_bind, e, bind_assoc]
    generalize (fullWindows w data).foldlM (fun (p : A × σ) v => f p.2 p.1 v) (start, st) = r
    cases r <;> rfl

/-- **C169**: more than eight vectors at a time panics. -/
theorem C169_too_many {T : Type} [SIMDSized T] [SIMDIterator T α w] (it : T) (amt fuel : Nat) (h : 8 < amt)
    (start : A) (st : σ) (f : σ → A → Vector α w → Res (A × σ)) :
    unrolledReduce c fuel amt it start st f = Res.panic := by
  unfold unrolledReduce
  rw [C19_unroll_too_many it amt h]
  rfl

/-- Seven elements, two lanes, chunks of two vectors: with `end` all are seen, without it the last is not. -/
example : (do
      let (_, acc, _) ← unrolledReduce debug64 9 2 (simdIter (w := 2) [1#8, 2, 3, 4, 5, 6, 7] #v[0, 0]) [] ()
        fun _ acc v => ok (acc ++ v.toList, ())
      ok acc) = ok [1#8, 2, 3, 4, 5, 6, 0, 7] := by decide +kernel

/-- Chunks of one and of two vectors, then the rest. -/
example : (do
      let (_, acc, _) ← chunksReduce debug64 9 (fun _ acc v => ok (acc ++ v.toList, ())) [1, 0, 2]
        (simdIter (w := 2) [1#8, 2, 3, 4, 5, 6, 7, 8, 9] #v[0, 0]) [] ()
      ok acc) = ok [1#8, 2, 3, 4, 5, 6, 7, 8, 0, 9] := by decide +kernel

end Faster
