import Verif.Props.Unwind
/-
C117: iterators and zips after a panic of the closure of `simd_reduce` or `simd_do_each`, and
filling again from a zip.
-/
namespace Faster
open Res SIMDSized SIMDIterable SIMDIterator MutM

/-! ### The models with places agree with those without -/

section
variable {I α : Type} {w : Nat} [SIMDSized I] [SIMDIterator I α w] [Unwind I α w] [LawfulUnwind I α w]

theorem obs_reduceLoopU {A σ : Type} (c : Cfg) (func : σ → A → Vector α w → Res (A × σ)) :
    ∀ (fuel : Nat) (acc : A) (st : σ) (it : I), obs (reduceLoopU c func fuel acc st) it =
      reduceLoop c func fuel it acc st >>= fun p => ok (p.2, p.1)
  | 0, _, _, _ => rfl
  | fuel + 1, acc, st, it => by
    simp only [reduceLoopU, reduceLoop, obs_bind, LawfulUnwind.next_run, bind_assoc]
    congr 1; funext ⟨r, it⟩
    cases r with
    | none => rfl
    | some v =>
      simp only [obs_bind, bind_assoc, ok_bind, obs_lift]
      congr 1; funext ⟨acc, st⟩
      exact obs_reduceLoopU c func fuel acc st it

/-- **C117**: `simd_reduce` with the place kept is `simd_reduce`. -/
theorem C117_same_reduce {A σ : Type} (c : Cfg) (func : σ → A → Vector α w → Res (A × σ)) (fuel : Nat)
    (start : A) (st : σ) (it : I) : obs (simdReduceU c fuel start st func) it =
      simdReduce c fuel it start st func >>= fun p => ok (p.2, p.1) := by
  simp only [simdReduceU, simdReduce, obs_bind, obs_reduceLoopU, LawfulUnwind.end_run, bind_assoc,
    ok_bind]
  congr 1; funext ⟨it, acc, st⟩
  simp only []
  congr 1; funext ⟨r, it⟩
  cases r with
  | none => rfl
  | some v => simp only [bind_assoc, ok_bind, obs_lift]

end

section
variable {Z γ : Type} [SIMDZippedIterator Z γ] [UnwindZ Z γ] [LawfulUnwindZ Z γ]

theorem obs_zreduceLoopU {A σ : Type} (c : Cfg) (func : σ → A → γ → Res (A × σ)) :
    ∀ (fuel : Nat) (acc : A) (st : σ) (z : Z), obs (zreduceLoopU c func fuel acc st) z =
      zreduceLoop c func fuel z acc st >>= fun p => ok (p.2, p.1)
  | 0, _, _, _ => rfl
  | fuel + 1, acc, st, z => by
    simp only [zreduceLoopU, zreduceLoop, obs_bind, LawfulUnwindZ.next_run, bind_assoc]
    congr 1; funext ⟨r, z⟩
    cases r with
    | none => rfl
    | some v =>
      simp only [obs_bind, bind_assoc, ok_bind, obs_lift]
      congr 1; funext ⟨acc, st⟩
      exact obs_zreduceLoopU c func fuel acc st z

theorem obs_zdoEachLoopU {σ : Type} (c : Cfg) (func : FnMut σ γ Unit) :
    ∀ (fuel : Nat) (st : σ) (z : Z), obs (zdoEachLoopU c func fuel st) z =
      zdoEachLoop c func fuel z st >>= fun p => ok (p.2, p.1)
  | 0, _, _ => rfl
  | fuel + 1, st, z => by
    simp only [zdoEachLoopU, zdoEachLoop, obs_bind, LawfulUnwindZ.next_run, bind_assoc]
    congr 1; funext ⟨r, z⟩
    cases r with
    | none => rfl
    | some v =>
      simp only [obs_bind, bind_assoc, ok_bind, obs_lift]
      congr 1; funext ⟨_, st⟩
      exact obs_zdoEachLoopU c func fuel st z

/-- **C117**: `simd_reduce` and `simd_do_each` of a zip with the place kept are `simd_reduce` and
`simd_do_each`. -/
theorem C117_same_zip {A σ : Type} (c : Cfg) (fuel : Nat) (start : A) (st : σ) (z : Z)
    (func : σ → A → γ → Res (A × σ)) (f : FnMut σ γ Unit) :
    obs (zsimdReduceU c fuel start st func) z =
      (zsimdReduce c fuel z start st func >>= fun p => ok (p.2, p.1)) ∧
    obs (zsimdDoEachU c fuel st f) z =
      zsimdDoEach c fuel z st f >>= fun p => ok (p.2, p.1) := by
  constructor
  · simp only [zsimdReduceU, zsimdReduce, obs_bind, obs_zreduceLoopU, LawfulUnwindZ.end_run, bind_assoc,
      ok_bind]
    congr 1; funext ⟨z, acc, st⟩
    simp only []
    congr 1; funext ⟨r, z⟩
    cases r with
    | none => rfl
    | some v => simp only [bind_assoc, ok_bind, obs_lift]
  · simp only [zsimdDoEachU, zsimdDoEach, obs_bind, obs_zdoEachLoopU, LawfulUnwindZ.end_run, bind_assoc,
      ok_bind]
    congr 1; funext ⟨z, st⟩
    simp only []
    congr 1; funext ⟨r, z⟩
    cases r with
    | none => rfl
    | some v => simp only [obs_bind, bind_assoc, ok_bind, obs_lift, obs_pure]

end

/-! ### A panic in the middle of a reduction -/

section
variable {I α : Type} {w : Nat} [SIMDSized I] [SIMDIterator I α w] [Unwind I α w] [LawfulUnwind I α w]

/-- A reduction whose closure panics at call `k` of a pass. -/
theorem simdReduceU_stops {A σ : Type} {c : Cfg} (f : σ → A → Vector α w → Res (A × σ)) {it it' : I}
    {vs : List (Vector α w)} {t : Option (Vector α w × Nat)} (h : Emits c it vs (ok (t, it')))
    (a a' : A) (st st' : σ) (k : Nat) (v : Vector α w) (hk : (withTail vs t)[k]? = some v)
    (hf : ((withTail vs t).take k).foldlM (fun (p : A × σ) v => f p.2 p.1 v) (a, st) = ok (a', st'))
    (hp : f st' a' v = panic) (fuel : Nat) (hfuel : vs.length < fuel) :
    ∃ s, simdReduceU c fuel a st f it = (panic, s) ∧
      (if k < vs.length then nextN c (k + 1) it = ok s else s = it') := by
  obtain ⟨r, h1, h2⟩ := h
  induction h1 generalizing a st k fuel with
  | @done it it1 h =>
    obtain ⟨g, rfl⟩ : ∃ g, fuel = g + 1 := ⟨fuel - 1, by omega⟩
    simp only [ok_bind] at h2
    have hl : reduceLoopU c f (g + 1) a st it = (ok (a, st), it1) := by
      rw [reduceLoopU]
      exact bind_ok_apply (nextU_of_next h)
    rcases t with _ | ⟨p, n⟩
    · simp [withTail] at hk
    · cases k with
      | succ k => simp [withTail] at hk
      | zero =>
        simp only [withTail, List.nil_append, Option.toList_some, List.map_cons, List.map_nil,
          List.getElem?_cons_zero, Option.some.injEq] at hk
        subst hk
        simp only [List.take_zero, List.foldlM_nil] at hf
        cases hf
        refine ⟨it', ?_, by simp⟩
        unfold simdReduceU
        refine (bind_ok_apply hl).trans ?_
        refine (bind_ok_apply (endU_of_end h2.symm)).trans ?_
        simp [MutM.lift, hp]
  | @fail it r h hr =>
    cases r with
    | ok a => exact absurd rfl (hr a)
    | _ => cases h2
  | @step it it1 v1 vs r h1 h3 ih =>
    obtain ⟨g, rfl⟩ : ∃ g, fuel = g + 1 := ⟨fuel - 1, by omega⟩
    simp only [List.length_cons] at hfuel
    cases k with
    | zero =>
      simp only [withTail, List.cons_append, List.getElem?_cons_zero, Option.some.injEq] at hk
      subst hk
      simp only [List.take_zero, List.foldlM_nil] at hf
      cases hf
      refine ⟨it1, ?_, by simp [nextN, h1]⟩
      unfold simdReduceU
      refine bind_panic_apply ?_
      rw [reduceLoopU]
      refine (bind_ok_apply (nextU_of_next h1)).trans ?_
      exact bind_panic_apply (x := MutM.lift (f _ _ v1)) (by rw [hp]; rfl)
    | succ k =>
      have e2 : withTail (v1 :: vs) t = v1 :: withTail vs t := rfl
      rw [e2] at hk hf
      simp only [List.getElem?_cons_succ, List.take_succ_cons, List.foldlM_cons] at hk hf
      cases hv : f st a v1 with
      | ok q =>
        obtain ⟨a1, st1⟩ := q
        rw [hv, ok_bind] at hf
        obtain ⟨s, hs1, hs2⟩ := ih a1 st1 k hk hf g (by omega) h2
        refine ⟨s, ?_, by simpa [nextN, h1] using hs2⟩
        rw [← hs1]
        have e : reduceLoopU c f (g + 1) a st it = reduceLoopU c f g a1 st1 it1 := by
          rw [reduceLoopU]
          refine (bind_ok_apply (nextU_of_next h1)).trans ?_
          exact bind_ok_apply (x := MutM.lift (f st a v1)) (by rw [hv]; rfl)
        show MutM.bind _ _ _ = MutM.bind _ _ _
        unfold MutM.bind
        rw [e]
      | _ => simp [hv] at hf

end

section
variable {Z γ : Type} [SIMDZippedIterator Z γ] [UnwindZ Z γ] [LawfulUnwindZ Z γ]

/-- The same for zips. -/
theorem zsimdReduceU_stops {A σ : Type} {c : Cfg} (f : σ → A → γ → Res (A × σ)) {z z' : Z}
    {vs : List γ} {t : Option (γ × Nat)} (h : ZEmits c z vs (ok (t, z')))
    (a a' : A) (st st' : σ) (k : Nat) (v : γ) (hk : (zwithTail vs t)[k]? = some v)
    (hf : ((zwithTail vs t).take k).foldlM (fun (p : A × σ) v => f p.2 p.1 v) (a, st) = ok (a', st'))
    (hp : f st' a' v = panic) (fuel : Nat) (hfuel : vs.length < fuel) :
    ∃ s, zsimdReduceU c fuel a st f z = (panic, s) ∧
      (if k < vs.length then znextN c (k + 1) z = ok s else s = z') := by
  obtain ⟨r, h1, h2⟩ := h
  induction h1 generalizing a st k fuel with
  | @done z z1 h =>
    obtain ⟨g, rfl⟩ : ∃ g, fuel = g + 1 := ⟨fuel - 1, by omega⟩
    simp only [ok_bind] at h2
    have hl : zreduceLoopU c f (g + 1) a st z = (ok (a, st), z1) := by
      rw [zreduceLoopU]
      exact bind_ok_apply (znextU_of_next h)
    rcases t with _ | ⟨p, n⟩
    · simp [zwithTail] at hk
    · cases k with
      | succ k => simp [zwithTail] at hk
      | zero =>
        simp only [zwithTail, List.nil_append, Option.toList_some, List.map_cons, List.map_nil,
          List.getElem?_cons_zero, Option.some.injEq] at hk
        subst hk
        simp only [List.take_zero, List.foldlM_nil] at hf
        cases hf
        refine ⟨z', ?_, by simp⟩
        unfold zsimdReduceU
        refine (bind_ok_apply hl).trans ?_
        refine (bind_ok_apply (zendU_of_end h2.symm)).trans ?_
        simp [MutM.lift, hp]
  | @fail z r h hr =>
    cases r with
    | ok a => exact absurd rfl (hr a)
    | _ => cases h2
  | @step z z1 v1 vs r h1 h3 ih =>
    obtain ⟨g, rfl⟩ : ∃ g, fuel = g + 1 := ⟨fuel - 1, by omega⟩
    simp only [List.length_cons] at hfuel
    cases k with
    | zero =>
      simp only [zwithTail, List.cons_append, List.getElem?_cons_zero, Option.some.injEq] at hk
      subst hk
      simp only [List.take_zero, List.foldlM_nil] at hf
      cases hf
      refine ⟨z1, ?_, by simp [znextN, h1]⟩
      unfold zsimdReduceU
      refine bind_panic_apply ?_
      rw [zreduceLoopU]
      refine (bind_ok_apply (znextU_of_next h1)).trans ?_
      exact bind_panic_apply (x := MutM.lift (f _ _ v1)) (by rw [hp]; rfl)
    | succ k =>
      have e2 : zwithTail (v1 :: vs) t = v1 :: zwithTail vs t := rfl
      rw [e2] at hk hf
      simp only [List.getElem?_cons_succ, List.take_succ_cons, List.foldlM_cons] at hk hf
      cases hv : f st a v1 with
      | ok q =>
        obtain ⟨a1, st1⟩ := q
        rw [hv, ok_bind] at hf
        obtain ⟨s, hs1, hs2⟩ := ih a1 st1 k hk hf g (by omega) h2
        refine ⟨s, ?_, by simpa [znextN, h1] using hs2⟩
        rw [← hs1]
        have e : zreduceLoopU c f (g + 1) a st z = zreduceLoopU c f g a1 st1 z1 := by
          rw [zreduceLoopU]
          refine (bind_ok_apply (znextU_of_next h1)).trans ?_
          exact bind_ok_apply (x := MutM.lift (f st a v1)) (by rw [hv]; rfl)
        show MutM.bind _ _ _ = MutM.bind _ _ _
        unfold MutM.bind
        rw [e]
      | _ => simp [hv] at hf

theorem mutM_assoc {S a b d : Type} (x : MutM S a) (f : a → MutM S b) (g : b → MutM S d) :
    (x >>= f) >>= g = x >>= fun q => f q >>= g := by
  funext s
  show MutM.bind (MutM.bind x f) g s = MutM.bind x (fun q => MutM.bind (f q) g) s
  unfold MutM.bind
  rcases x s with ⟨r, t⟩
  cases r <;> rfl

theorem mutM_pure_bind {S a b : Type} (q : a) (f : a → MutM S b) :
    (Pure.pure q : MutM S a) >>= f = f q := rfl

omit [SIMDZippedIterator Z γ] [LawfulUnwindZ Z γ] in
theorem zdoEachLoopU_eq {σ : Type} (c : Cfg) (f : FnMut σ γ Unit) : ∀ (fuel : Nat) (st : σ),
    (zdoEachLoopU c f fuel st : MutM Z σ) =
      zreduceLoopU c (fun st (_ : Unit) v => f st v) fuel () st >>= fun p => Pure.pure p.2
  | 0, st => rfl
  | fuel + 1, st => by
    rw [zdoEachLoopU, zreduceLoopU, mutM_assoc]
    congr 1; funext o
    cases o with
    | none => rfl
    | some v =>
      simp only [mutM_assoc]
      congr 1; funext ⟨_, st1⟩
      exact zdoEachLoopU_eq c f fuel st1

omit [SIMDZippedIterator Z γ] [LawfulUnwindZ Z γ] in
/-- `simd_do_each` is a reduction of nothing. -/
theorem zsimdDoEachU_eq {σ : Type} (c : Cfg) (f : FnMut σ γ Unit) (fuel : Nat) (st : σ) :
    (zsimdDoEachU c fuel st f : MutM Z σ) =
      zsimdReduceU c fuel () st (fun st (_ : Unit) v => f st v) >>= fun p => Pure.pure p.2 := by
  rw [zsimdDoEachU, zsimdReduceU, mutM_assoc, zdoEachLoopU_eq, mutM_assoc]
  congr 1; funext ⟨_, st1⟩
  simp only [mutM_pure_bind, mutM_assoc]
  congr 1; funext o
  cases o <;> rfl

end

/-! ### Iterators over slices and strides, and their zips -/

section
variable {I α β σ A : Type} {w w' : Nat} [SIMDSized I] [SIMDIterator I α w] [Unwind I α w]
  [LawfulUnwind I α w] {c : Cfg} {S : Nat → I} {l : List α} {d : Vector α w} {more : Nat → Prop}

/-- **C117**, `simd_reduce` over any iterator which walks over a list: if the closure panics at
call `k`, the iterator stands behind the vector of that call. -/
theorem C117_reduce_driver (h : Driver c S l d more) (fuel : Nat) (a a' : A) (st st' : σ)
    (f : σ → A → Vector α w → Res (A × σ)) (k : Nat) (v : Vector α w)
    (hw : 0 < w) (hfuel : l.length / w < fuel) (hk : (calls w d l)[k]? = some v)
    (hf : ((calls w d l).take k).foldlM (fun (p : A × σ) v => f p.2 p.1 v) (a, st) = ok (a', st'))
    (hp : f st' a' v = panic) :
    simdReduceU c fuel a st f (S 0) = (panic, S (min ((k + 1) * w) l.length)) := by
  obtain ⟨n, hc, he⟩ := h.emits hw
  obtain ⟨h1, h2, h3, h4⟩ := Driver.count_cases hw hc
  have hl : ((fullWindows w l).take n).length = n := by
    rw [List.length_take, fullWindows_length]; omega
  rw [← withTail_tailFrom hw d l hc] at hk hf
  obtain ⟨s, hs1, hs2⟩ := simdReduceU_stops f he a a' st st' k v hk hf hp fuel (by omega)
  rw [hs1]
  by_cases hkn : k < n
  · rw [hl, if_pos hkn] at hs2
    have := Nat.mul_le_mul_right w (show k + 1 ≤ n from hkn)
    rw [h.nextN_eq _ 0 s (Nat.zero_le _) hs2, Nat.min_eq_left (by omega), Nat.zero_add]
  · rw [hl, if_neg hkn] at hs2
    have := Nat.mul_le_mul_right w (show n ≤ k by omega)
    rw [hs2, Nat.min_eq_right (by rw [Nat.succ_mul]; omega)]

omit [Unwind I α w] [LawfulUnwind I α w] in
/-- **C117**: a second reduction after the panic of call `k` reduces the vectors after `k`. -/
theorem C117_reduce_resume_driver (h : Driver c S l d more) (fuel : Nat) (a : A) (st : σ)
    (f : σ → A → Vector α w → Res (A × σ)) (k : Nat) (hw : 0 < w) (hfuel : l.length / w < fuel) :
    simdReduce c fuel (S (min ((k + 1) * w) l.length)) a st f = (do
      let (acc, st') ← ((calls w d l).drop (k + 1)).foldlM (fun (p : A × σ) v => f p.2 p.1 v) (a, st)
      ok (S l.length, acc, st')) := by
  have hle : min ((k + 1) * w) l.length ≤ l.length := Nat.min_le_right _ _
  obtain ⟨n, hc, he⟩ := h.emits_from hw _ hle (by
    by_cases hkw : (k + 1) * w < l.length
    · right; right
      rw [Nat.succ_mul] at hkw; omega
    · right; left; exact Nat.min_eq_right (by omega))
  have hdrop : l.drop (min ((k + 1) * w) l.length) = l.drop ((k + 1) * w) := by
    rcases Nat.le_total ((k + 1) * w) l.length with h | h
    · rw [Nat.min_eq_left h]
    · rw [Nat.min_eq_right h, List.drop_of_length_le (Nat.le_refl _), List.drop_of_length_le h]
  rw [hdrop] at hc he
  obtain ⟨h1, -⟩ := Driver.count_cases hw hc
  have hdl : (l.drop ((k + 1) * w)).length / w ≤ l.length / w := Nat.div_le_div_right (by simp)
  rw [simdReduce_emits f he fuel a st (by rw [List.length_take, fullWindows_length]; omega),
    withTail_tailFrom hw d _ hc, calls_drop hw d (k + 1) l]

end

section
variable {α σ A : Type} {w : Nat}

/-- **C117** for slices, `simd_reduce`: after the panic of call `k`, the iterator stands behind
its vector; reducing again starts there. -/
theorem C117_reduce_panic (c : Cfg) (fuel : Nat) (data : List α) (d : Vector α w) (a a' : A)
    (st st' : σ) (f : σ → A → Vector α w → Res (A × σ)) (k : Nat) (v : Vector α w)
    (hw : 0 < w) (hlen : data.length + w < c.usize) (hfuel : data.length / w < fuel)
    (hk : (calls w d data)[k]? = some v)
    (hf : ((calls w d data).take k).foldlM (fun (p : A × σ) v => f p.2 p.1 v) (a, st) = ok (a', st'))
    (hp : f st' a' v = panic) :
    ∃ it : SIMDIter (Slice α w) α w, it = ⟨min ((k + 1) * w) data.length, ⟨data⟩, d⟩ ∧
    simdReduceU c fuel a st f (simdIter data d) = (panic, it) ∧
    ∀ b st1, simdReduce c fuel it b st1 f = (do
      let (acc, st2) ← ((calls w d data).drop (k + 1)).foldlM (fun (p : A × σ) v => f p.2 p.1 v) (b, st1)
      ok (⟨data.length, ⟨data⟩, d⟩, acc, st2)) :=
  let h := simdIter_driver (represents_slice c data) d hw hlen
  ⟨_, rfl, C117_reduce_driver h fuel a a' st st' f k v hw hfuel hk hf hp,
    fun b st1 => C117_reduce_resume_driver h fuel b st1 f k hw hfuel⟩

/-- **C117** for strided iterators, `simd_do_each` and `simd_reduce`. -/
theorem C117_stride_panic [Packable α] (c : Cfg) (fuel : Nat) (l : List α) {s j : Nat} (hj : j < s)
    (d : Vector α w) (a a' : A) (st st' : σ) (f : σ → A → Vector α w → Res (A × σ))
    (g : FnMut σ (Vector α w) Unit) (us : List Unit) (k : Nat) (v : Vector α w) (hw : 0 < w)
    (hlen : l.length + s * (w + 1) < c.usize) (hfuel : l.length / s / w < fuel)
    (hk : (calls w d (strided s j l hj))[k]? = some v) :
    (((calls w d (strided s j l hj)).take k).foldlM (fun (p : A × σ) v => f p.2 p.1 v) (a, st) =
        ok (a', st') → f st' a' v = panic →
      simdReduceU c fuel a st f (strideAt (⟨l⟩ : Slice α w) s j d) =
        (panic, ⟨⟨l⟩, j + s * min ((k + 1) * w) (l.length / s), j, s, d⟩)) ∧
    (callAll g st ((calls w d (strided s j l hj)).take k) = ok (us, st') → g st' v = panic →
      simdDoEachU c fuel st g (strideAt (⟨l⟩ : Slice α w) s j d) =
        (panic, ⟨⟨l⟩, j + s * min ((k + 1) * w) (l.length / s), j, s, d⟩)) := by
  obtain ⟨S, more, hd, h0, hS⟩ := strideAt_driver c l hj d hw hlen
  constructor
  · intro hf hp
    have := C117_reduce_driver hd fuel a a' st st' f k v hw (by rw [strided_length]; exact hfuel) hk hf hp
    rwa [h0, hS, strided_length] at this
  · intro hf hp
    have := C117_do_each_driver hd fuel st st' g us k v hw (by rw [strided_length]; exact hfuel) hk hf hp
    rwa [h0, hS, strided_length] at this

/-- **C117** for strided iterators: filling again after the panic. -/
theorem C117_resume_stride {β : Type} {w' : Nat} [Packable α] [Packable β] (c : Cfg) (fuel : Nat)
    (l : List α) {s j : Nat} (hj : j < s) (d : Vector α w) (st' : σ)
    (f : FnMut σ (Vector α w) (Vector β w')) (k : Nat) (buf : List β)
    (hw : 0 < w) (hw' : 0 < w') (hs : 0 < Packable.size β) (hlen : l.length + s * (w + 1) < c.usize)
    (hsize : w * Packable.size α = w' * Packable.size β) (hvec : w * Packable.size α < c.usize)
    (hlen' : (l.length / s / w + 1) * w' < c.usize) (hfuel : l.length / s / w < fuel)
    (hbuf : l.length / s / w * w' + w' ≤ buf.length) :
    scalarFill c fuel (⟨⟨⟨l⟩, j + s * min ((k + 1) * w) (l.length / s), j, s, d⟩, st', f⟩ :
        SIMDMap (PackedStride (Slice α w) α w) σ α w β w') buf = (do
      let (outs, st2) ← callAll f st' ((calls w d (strided s j l hj)).drop (k + 1))
      let out := unpad ((w - l.length / s % w) % w * Packable.size α / Packable.size β) outs
      ok (⟨⟨⟨l⟩, j + s * (l.length / s), j, s, d⟩, st2, f⟩, out ++ buf.drop out.length)) := by
  obtain ⟨S, more, hd, h0, hS⟩ := strideAt_driver c l hj d hw hlen
  have := C117_resume_driver hd fuel st' f k buf hw hw' hs hsize hvec (by rw [strided_length]; exact hlen')
    (by rw [strided_length]; exact hfuel) (by rw [strided_length]; exact hbuf)
  simp only [hS, strided_length, simdMap] at this
  exact this

end

/-- `scalar_fill` after `simd_map` over any zipped source. -/
theorem scalarFill_zipMap {Z γ σ β : Type} {w' : Nat} [SIMDZippedIterator Z γ] [Packable β] {c : Cfg}
    (f : FnMut σ γ (Vector β w')) {z z' : Z}
    {vs : List γ} {t : Option (γ × Nat)} (h : ZEmits c z vs (ok (t, z')))
    {sz : Nat} (hsz : SIMDZippedIterator.size z' = sz) (hw' : 0 < w') (hs : 0 < Packable.size β)
    (buf : List β) (hb : vs.length * w' ≤ buf.length)
    (hn : ∀ p n, t = some (p, n) → n * sz < c.usize ∧ n * sz / Packable.size β ≤ w' ∧
      vs.length * w' + w' ≤ buf.length + n * sz / Packable.size β)
    (hu : (vs.length + 1) * w' < c.usize) (fuel : Nat) (hf : vs.length < fuel) (st : σ) :
    scalarFill c fuel (zsimdMap z st f) buf =
      callAll f st (zwithTail vs t) >>= fun p => ok (⟨z', p.2, f⟩,
        splice buf 0 (unpad (zpadOf t * sz / Packable.size β) p.1)) := by
  subst hsz
  have hm := zipMap_emits f h hs (fun p n e => (hn p n e).1) st
  have hlen := mapRun_length_le f st vs
  have hmul : (mapRun f st vs).1.length * w' ≤ vs.length * w' := Nat.mul_le_mul_right w' hlen
  rw [Nat.succ_mul] at hu
  rw [zsimdMap, scalarFill_emits hm fuel buf (by omega) hw' (by omega) (by omega)]
  · rw [zwithTail, callAll_append, callAll_mapRun f st vs]
    rcases t with _ | ⟨p, n⟩
    · simp only [zmapTail, bind_assoc, ok_bind, Option.toList_none, List.map_nil, callAll, zpadOf,
        Option.map_none, Option.getD_none, Nat.zero_mul, Nat.zero_div, unpad_zero,
        List.append_nil]
    · simp only [zmapTail, bind_assoc, ok_bind, Option.toList_some, List.map_cons, List.map_nil, callAll,
        zpadOf, Option.map_some, Option.getD_some, unpad_concat]
  · intro p n it2 e
    rcases t with _ | ⟨p1, n1⟩
    · cases h2 : (mapRun f st vs).2 with
      | ok a => simp [zmapTail, h2] at e
      | _ => simp [zmapTail, h2] at e
    · cases h2 : (mapRun f st vs).2 with
      | ok a =>
        simp only [zmapTail, h2, ok_bind] at e
        cases h3 : f a p1 with
        | ok q =>
          simp only [h3, ok_bind, ok.injEq, Prod.mk.injEq, Option.some.injEq] at e
          rw [← e.1.2]
          have := hn p1 n1 rfl
          omega
        | _ => simp [h3] at e
      | _ => simp [zmapTail, h2] at e

section
variable {I R α γ δ β σ A : Type} {w w' : Nat} [SIMDSized I] [SIMDIterator I α w] [Unwind I α w]
  [LawfulUnwind I α w] [Packable α] [ZipRest R γ] [LawfulRest R γ δ w] {c : Cfg} {S : Nat → I}
  {r : R} {rows : List (α × δ)} {dv : Vector (α × δ) w} {more : Nat → Prop}

omit [Unwind I α w] [LawfulUnwind I α w] in
theorem zip_nextN (hd : Driver c S (rows.map Prod.fst) (dv.map Prod.fst) more)
    (hr : LawfulRest.Rep c r (rows.map Prod.snd) (dv.map Prod.snd)) (hu : rows.length < c.usize) :
    ∀ (j p : Nat) (z : Zip I R), p ≤ rows.length →
      znextN c j (⟨S p, r⟩ : Zip I R) = ok z → z = ⟨S (p + j * w), r⟩ := by
  intro j
  induction j with
  | zero =>
    intro p z _ e
    simp only [znextN, ok.injEq] at e
    rw [Nat.zero_mul]; exact e.symm
  | succ j ih =>
    intro p z hp e
    by_cases hm : more p
    · obtain ⟨hle, hn⟩ := (zip_next hd hr hu p).1 hm
      simp only [znextN, hn, ok_bind] at e
      rw [ih (p + w) z hle e, Nat.succ_mul, show p + w + j * w = p + (j * w + w) by omega]
    · simp [znextN, (zip_next hd hr hu p).2 hm hp] at e

omit [Unwind I α w] [LawfulUnwind I α w] in
/-- A pass over a zip from any position at which `end` works. -/
theorem zip_emits_from (hd : Driver c S (rows.map Prod.fst) (dv.map Prod.fst) more) (hw : 0 < w)
    (hr : LawfulRest.Rep c r (rows.map Prod.snd) (dv.map Prod.snd))
    (hu : rows.length + w < c.usize) (p : Nat) (hp : p ≤ rows.length)
    (hs : p = 0 ∨ p = rows.length ∨ w < rows.length) :
    ∃ n, Driver.count w (rows.drop p) n ∧
      ZEmits c (⟨S p, r⟩ : Zip I R) (((fullWindows w (rows.drop p)).take n).map (packRow R))
        (ok ((tailFrom dv (rows.drop p) n).map fun q => (packRow R q.1, q.2), ⟨S rows.length, r⟩)) := by
  obtain ⟨n, h1, hm, hc⟩ := zip_runs_from hd hw hr (by omega) p hp
  obtain ⟨h2, h3, h4, -⟩ := Driver.count_cases hw hc
  rw [List.length_drop] at h3 h4
  refine ⟨n, hc, _, h1, ?_⟩
  simp only [ok_bind]
  rw [zip_end hd hr (by omega) _ (by omega) hm]
  · simp only [tailFrom, List.length_drop, List.drop_drop]
    by_cases hlt : p + n * w < rows.length
    · rw [if_pos hlt, if_pos (by omega), show rows.length - (p + n * w) = rows.length - p - n * w by omega]
      rfl
    · rw [if_neg hlt, if_neg (by omega), show p + n * w = rows.length by omega]
      rfl
  · intro hlt
    by_cases hn : n = 0
    · rw [hn, Nat.zero_mul, Nat.add_zero] at hlt ⊢
      omega
    · right
      have := Nat.le_mul_of_pos_left w (Nat.pos_of_ne_zero hn)
      omega

/-- **C117** for zips of any arity, `simd_reduce`: after a panic at call `k`, the zip stands
behind the rows of that call. -/
theorem C117_reduce_panic_zip (hd : Driver c S (rows.map Prod.fst) (dv.map Prod.fst) more) (hw : 0 < w)
    (hr : LawfulRest.Rep c r (rows.map Prod.snd) (dv.map Prod.snd))
    (hu : rows.length + w < c.usize) (fuel : Nat) (a a' : A) (st st' : σ)
    (f : σ → A → Vector α w × γ → Res (A × σ)) (k : Nat) (v : Vector α w × γ)
    (hfuel : rows.length / w < fuel) (hk : ((calls w dv rows).map (packRow R))[k]? = some v)
    (hf : (((calls w dv rows).map (packRow R)).take k).foldlM (fun (p : A × σ) v => f p.2 p.1 v) (a, st) =
      ok (a', st')) (hp : f st' a' v = panic) :
    zsimdReduceU c fuel a st f (⟨S 0, r⟩ : Zip I R) =
      (panic, ⟨S (min ((k + 1) * w) rows.length), r⟩) := by
  obtain ⟨n, hc, he⟩ := zip_emits hd hw hr hu
  obtain ⟨h1, h2, h3, h4⟩ := Driver.count_cases hw hc
  have hl : (((fullWindows w rows).take n).map (packRow R)).length = n := by
    rw [List.length_map, List.length_take, fullWindows_length]; omega
  rw [← zwithTail_tailFrom hw hc] at hk hf
  obtain ⟨s, hs1, hs2⟩ := zsimdReduceU_stops f he a a' st st' k v hk hf hp fuel (by omega)
  rw [hs1]
  by_cases hkn : k < n
  · rw [hl, if_pos hkn] at hs2
    have := Nat.mul_le_mul_right w (show k + 1 ≤ n from hkn)
    rw [zip_nextN hd hr (by omega) _ 0 s (Nat.zero_le _) hs2, Nat.min_eq_left (by omega), Nat.zero_add]
  · rw [hl, if_neg hkn] at hs2
    have := Nat.mul_le_mul_right w (show n ≤ k by omega)
    rw [hs2, Nat.min_eq_right (by rw [Nat.succ_mul]; omega)]

theorem callAll_foldlM {γ : Type} (f : FnMut σ γ Unit) : ∀ (vs : List γ) (st st' : σ) (us : List Unit),
    callAll f st vs = ok (us, st') →
    vs.foldlM (fun (p : Unit × σ) v => f p.2 v) ((), st) = ok ((), st')
  | [], st, st', us, h => by
    simp only [callAll, ok.injEq, Prod.mk.injEq] at h
    rw [← h.2]; rfl
  | v :: vs, st, st', us, h => by
    simp only [callAll] at h
    cases hv : f st v with
    | ok q =>
      obtain ⟨⟨⟩, st1⟩ := q
      rw [hv, ok_bind] at h
      cases h2 : callAll f st1 vs with
      | ok q2 =>
        obtain ⟨us2, st2⟩ := q2
        simp only [h2, ok_bind, ok.injEq, Prod.mk.injEq] at h
        obtain ⟨-, rfl⟩ := h
        simp only [List.foldlM_cons, hv, ok_bind]
        exact callAll_foldlM f vs st1 _ us2 h2
      | _ => simp [h2] at h
    | _ => simp [hv] at h

/-- **C117** for zips of any arity, `simd_do_each`. -/
theorem C117_do_each_panic_zip (hd : Driver c S (rows.map Prod.fst) (dv.map Prod.fst) more) (hw : 0 < w)
    (hr : LawfulRest.Rep c r (rows.map Prod.snd) (dv.map Prod.snd))
    (hu : rows.length + w < c.usize) (fuel : Nat) (st st' : σ)
    (f : FnMut σ (Vector α w × γ) Unit) (us : List Unit) (k : Nat) (v : Vector α w × γ)
    (hfuel : rows.length / w < fuel) (hk : ((calls w dv rows).map (packRow R))[k]? = some v)
    (hf : callAll f st (((calls w dv rows).map (packRow R)).take k) = ok (us, st'))
    (hp : f st' v = panic) :
    zsimdDoEachU c fuel st f (⟨S 0, r⟩ : Zip I R) =
      (panic, ⟨S (min ((k + 1) * w) rows.length), r⟩) := by
  rw [zsimdDoEachU_eq]
  exact bind_panic_apply (C117_reduce_panic_zip hd hw hr hu fuel () () st st'
    (fun st _ v => f st v) k v hfuel hk (callAll_foldlM f _ st st' us hf) hp)

omit [Unwind I α w] [LawfulUnwind I α w] in
/-- **C117** for zips of any arity: filling again after the panic. -/
theorem C117_resume_zip [Packable β] (hd : Driver c S (rows.map Prod.fst) (dv.map Prod.fst) more)
    (hw : 0 < w) (hr : LawfulRest.Rep c r (rows.map Prod.snd) (dv.map Prod.snd))
    (hu : rows.length + w < c.usize) (fuel : Nat) (st' : σ)
    (f : FnMut σ (Vector α w × γ) (Vector β w')) (k : Nat) (buf : List β)
    (hw' : 0 < w') (hs : 0 < Packable.size β)
    (hsize : w * Packable.size α = w' * Packable.size β) (hvec : w * Packable.size α < c.usize)
    (hlen' : (rows.length / w + 1) * w' < c.usize) (hfuel : rows.length / w < fuel)
    (hbuf : rows.length / w * w' + w' ≤ buf.length) :
    scalarFill c fuel (zsimdMap (⟨S (min ((k + 1) * w) rows.length), r⟩ : Zip I R) st' f) buf = (do
      let (outs, st2) ← callAll f st' (((calls w dv rows).map (packRow R)).drop (k + 1))
      let out := unpad ((w - rows.length % w) % w * Packable.size α / Packable.size β) outs
      ok (⟨⟨S rows.length, r⟩, st2, f⟩, out ++ buf.drop out.length)) := by
  have hle : min ((k + 1) * w) rows.length ≤ rows.length := Nat.min_le_right _ _
  obtain ⟨n, hc, he⟩ := zip_emits_from hd hw hr hu _ hle (by
    by_cases hkw : (k + 1) * w < rows.length
    · right; right
      rw [Nat.succ_mul] at hkw; omega
    · right; left; exact Nat.min_eq_right (by omega))
  have hpad := padOf_tailFrom hw dv _ hc
  obtain ⟨h1, h2, h3, h4⟩ := Driver.count_cases hw hc
  have hdrop : rows.drop (min ((k + 1) * w) rows.length) = rows.drop ((k + 1) * w) := by
    rcases Nat.le_total ((k + 1) * w) rows.length with h | h
    · rw [Nat.min_eq_left h]
    · rw [Nat.min_eq_right h, List.drop_of_length_le (Nat.le_refl _), List.drop_of_length_le h]
  rw [hdrop] at hc he hpad h1 h2 h3 h4
  have hcalls := zwithTail_tailFrom (R := R) (dv := dv) hw hc
  have hdl : (rows.drop ((k + 1) * w)).length / w ≤ rows.length / w :=
    Nat.div_le_div_right (by simp)
  have hl : (((fullWindows w (rows.drop ((k + 1) * w))).take n).map (packRow R)).length = n := by
    rw [List.length_map, List.length_take, fullWindows_length]; omega
  have hn := Nat.mul_le_mul_right w' (show n ≤ rows.length / w by omega)
  have hzp : zpadOf ((tailFrom dv (rows.drop ((k + 1) * w)) n).map fun q => (packRow R q.1, q.2)) =
      padOf (tailFrom dv (rows.drop ((k + 1) * w)) n) := by
    unfold zpadOf padOf
    cases tailFrom dv (rows.drop ((k + 1) * w)) n <;> rfl
  rw [Nat.succ_mul] at hlen'
  rw [scalarFill_zipMap f he (sz := Packable.size α) rfl hw' hs buf (by rw [hl]; omega) (by
      intro p m e
      simp only [Option.map_eq_some_iff] at e
      obtain ⟨q, hq, e⟩ := e
      have hm := tailFrom_some (p := q.1) (n := q.2) hq
      simp only [Prod.mk.injEq] at e
      rw [← e.2]
      have := Nat.mul_le_mul_right (Packable.size α) hm
      refine ⟨by omega, ?_, by rw [hl]; exact Nat.le_add_right_of_le (by omega)⟩
      exact Nat.div_le_of_le_mul (by rw [Nat.mul_comm (Packable.size β)]; omega))
    (by rw [hl, Nat.succ_mul]; omega) fuel (by omega) st', hcalls, hzp, hpad,
    calls_drop hw dv (k + 1) rows, List.map_drop]
  by_cases hkw : (k + 1) * w ≤ rows.length
  · have : (rows.drop ((k + 1) * w)).length % w = rows.length % w := by
      rw [List.length_drop, Nat.mul_comm, Nat.sub_mul_mod (by rw [Nat.mul_comm]; exact hkw)]
    rw [this]
    congr 1; funext p
    rw [splice_zero]
  · have e : (calls w dv rows).drop (k + 1) = [] := by
      rw [← calls_drop hw, List.drop_of_length_le (by omega), calls_nil]
    rw [← List.map_drop, e]
    simp [callAll, unpad, lanes, splice]

omit [Unwind I α w] [LawfulUnwind I α w] in
/-- **C117** for zips of any arity: reducing again after the panic. -/
theorem C117_reduce_resume_zip (hd : Driver c S (rows.map Prod.fst) (dv.map Prod.fst) more)
    (hw : 0 < w) (hr : LawfulRest.Rep c r (rows.map Prod.snd) (dv.map Prod.snd))
    (hu : rows.length + w < c.usize) (fuel : Nat) (a : A) (st : σ)
    (f : σ → A → Vector α w × γ → Res (A × σ)) (k : Nat) (hfuel : rows.length / w < fuel) :
    zsimdReduce c fuel (⟨S (min ((k + 1) * w) rows.length), r⟩ : Zip I R) a st f = (do
      let (acc, st') ← (((calls w dv rows).map (packRow R)).drop (k + 1)).foldlM
        (fun (p : A × σ) v => f p.2 p.1 v) (a, st)
      ok (⟨S rows.length, r⟩, acc, st')) := by
  have hle : min ((k + 1) * w) rows.length ≤ rows.length := Nat.min_le_right _ _
  obtain ⟨n, hc, he⟩ := zip_emits_from hd hw hr hu _ hle (by
    by_cases hkw : (k + 1) * w < rows.length
    · right; right
      rw [Nat.succ_mul] at hkw; omega
    · right; left; exact Nat.min_eq_right (by omega))
  have hdrop : rows.drop (min ((k + 1) * w) rows.length) = rows.drop ((k + 1) * w) := by
    rcases Nat.le_total ((k + 1) * w) rows.length with h | h
    · rw [Nat.min_eq_left h]
    · rw [Nat.min_eq_right h, List.drop_of_length_le (Nat.le_refl _), List.drop_of_length_le h]
  rw [hdrop] at hc he
  obtain ⟨h1, -⟩ := Driver.count_cases hw hc
  have hdl : (rows.drop ((k + 1) * w)).length / w ≤ rows.length / w := Nat.div_le_div_right (by simp)
  rw [zsimdReduce_emits f he fuel a st (by rw [List.length_map, List.length_take, fullWindows_length]; omega),
    zwithTail_tailFrom hw hc, calls_drop hw dv (k + 1) rows, List.map_drop]

end

/-- The closure of a reduction panics at the second vector of five elements: the iterator stands
at 4, and a second reduction sees the last element only. -/
example :
    let f : Unit → Nat → Vector (BitVec 8) 2 → Res (Nat × Unit) :=
      fun _ a v => if v = #v[3#8, 4] then panic else ok (a + v.toList.foldl (· + ·.toNat) 0, ())
    let r := simdReduceU release64 9 0 () f (simdIter (w := 2) [1#8, 2, 3, 4, 5] #v[0#8, 0])
    r.1 = panic ∧ r.2.position = 4 ∧
    (simdReduce release64 9 r.2 0 () f >>= fun p => ok p.2.1) = ok 5 := by
  decide +kernel

/-- The same with a zip and `simd_do_each`. -/
example :
    let f : FnMut Nat (Vector (BitVec 8) 2 × Vector (BitVec 8) 2 × Unit) Unit :=
      fun n v => if v.1 = #v[3#8, 4] then panic else ok ((), n + 1)
    let z : Zip (SIMDIter (Slice (BitVec 8) 2) (BitVec 8) 2) (SIMDIter (Slice (BitVec 8) 2) (BitVec 8) 2 × Unit) :=
      ⟨simdIter (w := 2) [1#8, 2, 3, 4, 5] #v[0#8, 0],
        (simdIter (w := 2) [6#8, 7, 8, 9, 10] #v[0#8, 0], ())⟩
    let r := zsimdDoEachU release64 9 0 f z
    r.1 = panic ∧ r.2.first.position = 4 := by
  decide +kernel

end Faster
