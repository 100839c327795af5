import Verif.Lemmas.Map
/-
C01–C06: a pass over a collection with `simd_iter`.

Common hypotheses. `0 < w`: vectors have at least one lane. `data.length + w <
c.usize`: the collection's length plus one vector is a `usize` (a Rust slice
has at most `isize::MAX` bytes). `w * size < c.usize`: the size of a vector in
bytes is a `usize`. `fuel` bounds the number of loop iterations the model may
use; every sufficiently large value gives the same result.
-/
namespace Faster
open Res SIMDSized SIMDIterable SIMDIterator

/-! Helpers for the statements below. -/

theorem withTail_tailOf {α : Type} {w : Nat} (d : Vector α w) (l : List α) :
    withTail (fullWindows w l) (tailOf d l) = calls w d l := by
  unfold withTail tailOf calls
  split <;> simp

theorem padOf_tailOf {α : Type} {w : Nat} (hw : 0 < w) (d : Vector α w) (l : List α) :
    padOf (tailOf d l) = (w - l.length % w) % w := by
  unfold padOf tailOf
  have := Nat.mod_lt l.length hw
  split
  · rename_i h; simp [h]
  · rename_i h; simp only [Option.map_some, Option.getD_some]; rw [Nat.mod_eq_of_lt (a := w - l.length % w) (by omega)]

theorem tailOf_none {α : Type} {w : Nat} {d : Vector α w} {l : List α} (h : tailOf d l = none) :
    l.length % w = 0 := by
  unfold tailOf at h
  split at h
  · assumption
  · cases h

theorem tailOf_some {α : Type} {w : Nat} (hw : 0 < w) {d : Vector α w} {l : List α}
    {p : Vector α w} {n : Nat} (h : tailOf d l = some (p, n)) :
    n = w - l.length % w ∧ l.length % w ≠ 0 ∧ n < w ∧ p = padFront d (leftover w l) := by
  unfold tailOf at h
  have := Nat.mod_lt l.length hw
  split at h
  · cases h
  · simp only [Option.some.injEq, Prod.mk.injEq] at h
    refine ⟨h.2.symm, by assumption, by omega, h.1.symm⟩

theorem lanes_map {α β : Type} {w : Nat} (g : α → β) (vs : List (Vector α w)) :
    lanes (vs.map (Vector.map g)) = (lanes vs).map g := by
  induction vs with
  | nil => rfl
  | cons v vs ih => simp [ih, Vector.toList_map]

theorem callAll_pure {β γ : Type} (g : β → γ) (vs : List β) :
    callAll (pureFn g) () vs = ok (vs.map g, ()) := by
  induction vs with
  | nil => rfl
  | cons v vs ih => simp [callAll, pureFn] at ih ⊢; simp [ih]

/-- Without the padding, the lanes of a pass are the collection. -/
theorem unpad_calls {α : Type} {w : Nat} (hw : 0 < w) (d : Vector α w) (l : List α) :
    unpad ((w - l.length % w) % w) (calls w d l) = l := by
  have hm := Nat.mod_lt l.length hw
  have hl := leftover_length w l
  have key := lanes_fullWindows hw l
  unfold calls
  split
  · rename_i h
    have : leftover w l = [] := List.eq_nil_of_length_eq_zero (by omega)
    rw [h, Nat.sub_zero, Nat.mod_self, List.append_nil, unpad_zero]
    simpa [this] using key
  · rename_i h
    rw [unpad_concat, Nat.mod_eq_of_lt (by omega)]
    have e : w - l.length % w = w - (leftover w l).length := by omega
    rw [e, padFront_drop d _ (by omega), key]

theorem unpad_map {α β : Type} {w : Nat} (g : α → β) (pad : Nat) (us : List (Vector α w)) :
    unpad pad (us.map (Vector.map g)) = (unpad pad us).map g := by
  rcases List.eq_nil_or_concat us with rfl | ⟨l, u, rfl⟩
  · rfl
  · rw [List.concat_eq_append, List.map_append, List.map_cons, List.map_nil, unpad_concat,
      unpad_concat, lanes_map, List.map_append]
    simp [List.map_drop, Vector.toList_map]

theorem simdIter_len {α : Type} {w : Nat} (c : Cfg) (hw : 0 < w) (data : List α) (d : Vector α w)
    (p : Nat) : SIMDIterable.len c (⟨p, ⟨data⟩, d⟩ : SIMDIter (Slice α w) α w) =
      ok (data.length / w) := by
  simp [SIMDIterable.len, SIMDSized.scalarLen, udiv_ok hw]

/-! ### C05 -/

/-- **C05.** `data.simd_iter(d).simd_map(f).scalar_collect()` for an arbitrary
stateful closure which may panic and may change the lane size: the closure is
called on the vectors of the call protocol in order, and the result is all
lanes of its outputs in order, without the lanes of the last output which
correspond to the padding lanes of the last input. If the closure panics, so
does the call. Every returned element was written (`some`). -/
theorem C05_collect_any_closure {α β σ : Type} [Packable α] [Packable β] {w w' : Nat} (c : Cfg)
    (fuel : Nat) (data : List α) (d : Vector α w) (st : σ)
    (f : FnMut σ (Vector α w) (Vector β w'))
    (hw : 0 < w) (hw' : 0 < w') (hs : 0 < Packable.size β)
    (hsize : w * Packable.size α = w' * Packable.size β)
    (hlen : data.length + w < c.usize) (hlen' : (data.length / w + 1) * w' < c.usize)
    (hvec : w * Packable.size α < c.usize) (hfuel : data.length / w < fuel) :
    scalarCollect c fuel (simdMap (simdIter data d) st f) = (do
      let (outs, st') ← callAll f st (calls w d data)
      ok (⟨⟨data.length, ⟨data⟩, d⟩, st', f⟩,
        (unpad ((w - data.length % w) % w * Packable.size α / Packable.size β) outs).map some)) := by
  have he := simdIter_emits (represents_slice (w := w) c data) d hw hlen
  have hl := fullWindows_length w data
  rw [simdIter, scalarCollect_map f he hw' hs (simdIter_len c hw data d 0) (by omega)
    (fun _ => by rw [simdIter_len c hw data d, hl]) _ hlen' fuel (by omega) st,
    withTail_tailOf, padOf_tailOf hw]
  intro p n hpn
  obtain ⟨hn, -, hnw, -⟩ := tailOf_some hw hpn
  have h1 : n * Packable.size α ≤ w * Packable.size α := Nat.mul_le_mul_right _ (by omega)
  refine ⟨by omega, ?_⟩
  rw [hsize] at h1
  exact Nat.div_le_of_le_mul (by rw [Nat.mul_comm (Packable.size β)]; exact h1)

/-- A non-lane-wise stateful closure (reverses the lanes, adds a counter) on
five elements with four lanes meets the hypotheses. -/
example : (do
    let (_, out) ← scalarCollect debug64 5
      (simdMap (simdIter (w := 4) [1#32, 2, 3, 4, 5] (Vector.replicate 4 9#32)) 100#32
        (fun st v => ok (v.reverse.map (· + st), st + 100)))
    ok out) = ok ([104#32, 103, 102, 101, 209].map some) := by decide +kernel

/-! ### C01 -/

/-- **C01.** Mapping with a lane-wise closure and collecting is the scalar map. -/
theorem C01_map_collect {α β : Type} [Packable α] [Packable β] {w : Nat} (c : Cfg)
    (fuel : Nat) (data : List α) (d : Vector α w) (g : α → β)
    (hw : 0 < w) (hs : 0 < Packable.size β) (hsize : Packable.size α = Packable.size β)
    (hlen : data.length + w < c.usize)
    (hvec : w * Packable.size α < c.usize) (hfuel : data.length / w < fuel) :
    scalarCollect c fuel (simdMap (simdIter data d) () (pureFn (Vector.map g))) =
      ok (⟨⟨data.length, ⟨data⟩, d⟩, (), pureFn (Vector.map g)⟩, (data.map g).map some) := by
  have hdm := Nat.div_mul_le_self data.length w
  rw [C05_collect_any_closure c fuel data d () _ hw hw hs (by rw [hsize]) hlen
    (by rw [Nat.succ_mul]; omega) hvec hfuel, callAll_pure]
  simp only [ok_bind]
  rw [← hsize, Nat.mul_div_cancel _ (by omega), unpad_map, unpad_calls hw]

/-- Hypotheses met by seven 16-bit elements in eight lanes, release build. -/
example : (do
    let (_, out) ← scalarCollect release64 1
      (simdMap (simdIter (w := 8) [1#16, 2, 3, 4, 5, 6, 7] (Vector.replicate 8 0#16)) ()
        (pureFn (Vector.map (· * 10))))
    ok out) = ok ([10#16, 20, 30, 40, 50, 60, 70].map some) := by
  rw [C01_map_collect release64 1 _ _ _ (by decide) (by decide) rfl (by decide) (by decide)
    (by decide)]
  rfl

/-! ### C02, C03 -/

/-- **C02.** `simd_do_each` calls the closure exactly on the vectors of the
call protocol `calls w d data`, in order, threading its state; it stops at the
first panic. (`simd_map` with a consumer: C05; `simd_reduce`: C03.) -/
theorem C02_do_each_calls {α σ : Type} {w : Nat} (c : Cfg) (fuel : Nat) (data : List α)
    (d : Vector α w) (st : σ) (f : FnMut σ (Vector α w) Unit)
    (hw : 0 < w) (hlen : data.length + w < c.usize) (hfuel : data.length / w < fuel) :
    simdDoEach c fuel (simdIter data d) st f = (do
      let (_, st') ← callAll f st (calls w d data)
      ok (⟨data.length, ⟨data⟩, d⟩, st')) := by
  have he := simdIter_emits (represents_slice (w := w) c data) d hw hlen
  rw [simdIter, simdDoEach_emits f he fuel st (by rw [fullWindows_length]; omega),
    withTail_tailOf]

/-- A closure which logs its argument and panics at call number `k`. -/
def logUntil {β : Type} (k : Nat) : FnMut (List β) β Unit :=
  fun log v => if log.length = k then panic else ok ((), log ++ [v])

theorem callAll_log {β : Type} (k : Nat) (vs log : List β) (h : log.length + vs.length ≤ k) :
    callAll (logUntil k) log vs = ok (vs.map fun _ => (), log ++ vs) := by
  induction vs generalizing log with
  | nil => simp [callAll]
  | cons v vs ih =>
    simp only [List.length_cons] at h
    have e : logUntil k log v = ok ((), log ++ [v]) := by
      simp only [logUntil]; rw [if_neg (by omega)]
    simp only [callAll, e, ok_bind]
    rw [ih (log ++ [v]) (by simp; omega)]
    simp

/-- **C02** (log form). The log of the calls of a complete pass is the call
protocol; there are exactly `⌈len / w⌉` calls. -/
theorem C02_do_each_log {α : Type} {w : Nat} (c : Cfg) (fuel : Nat) (data : List α)
    (d : Vector α w) (hw : 0 < w) (hlen : data.length + w < c.usize)
    (hfuel : data.length / w < fuel) :
    simdDoEach c fuel (simdIter data d) [] (logUntil (data.length + 1)) =
      ok (⟨data.length, ⟨data⟩, d⟩, calls w d data) ∧
    (calls w d data).length = (data.length + (w - 1)) / w := by
  have hl : (calls w d data).length = (data.length + (w - 1)) / w := by
    unfold calls
    have e := Nat.div_add_mod data.length w
    have hm := Nat.mod_lt data.length hw
    rw [List.length_append, fullWindows_length]
    split
    · rename_i h0
      simp only [List.length_nil, Nat.add_zero]
      symm
      apply Nat.div_eq_of_lt_le
      · rw [Nat.mul_comm]; omega
      · rw [Nat.succ_mul, Nat.mul_comm]; omega
    · rename_i h0
      simp only [List.length_cons, List.length_nil]
      symm
      apply Nat.div_eq_of_lt_le
      · rw [Nat.succ_mul, Nat.mul_comm]; omega
      · rw [Nat.succ_mul, Nat.succ_mul, Nat.mul_comm]; omega
  refine ⟨?_, hl⟩
  rw [C02_do_each_calls c fuel data d [] _ hw hlen hfuel, callAll_log]
  · simp
  · rw [hl]
    have : (data.length + (w - 1)) / w ≤ data.length + 1 := by
      apply Nat.div_le_of_le_mul
      have := Nat.le_mul_of_pos_left (data.length + 1) hw
      have h2 : w ≤ w * (data.length + 1) := Nat.le_mul_of_pos_right _ (by omega)
      have h3 : w * (data.length + 1) = w * data.length + w := Nat.mul_succ _ _
      have h4 : data.length ≤ w * data.length := Nat.le_mul_of_pos_left _ hw
      omega
    simp only [List.length_nil]; omega

example : (do
    let (_, log) ← simdDoEach debug64 3 (simdIter (w := 2) [1#32, 2, 3, 4, 5] #v[7#32, 8])
      [] (logUntil 6)
    ok log) = ok [#v[1#32, 2], #v[3, 4], #v[7, 5]] := by decide

/-- **C03.** `simd_reduce(start, f)` is the monadic left fold of `f` over the
call protocol (a panic of `f` stops the fold). -/
theorem C03_reduce_fold {α A σ : Type} {w : Nat} (c : Cfg) (fuel : Nat) (data : List α)
    (d : Vector α w) (start : A) (st : σ) (f : σ → A → Vector α w → Res (A × σ))
    (hw : 0 < w) (hlen : data.length + w < c.usize) (hfuel : data.length / w < fuel) :
    simdReduce c fuel (simdIter data d) start st f = (do
      let (acc, st') ← (calls w d data).foldlM (fun (acc, st) v => f st acc v) (start, st)
      ok (⟨data.length, ⟨data⟩, d⟩, acc, st')) := by
  have he := simdIter_emits (represents_slice (w := w) c data) d hw hlen
  rw [simdIter, simdReduce_emits f he fuel start st (by rw [fullWindows_length]; omega),
    withTail_tailOf]

theorem foldlM_pure {A B : Type} (f : A → B → A) (vs : List B) (a : A) :
    vs.foldlM (fun (p : A × Unit) v => (ok (f p.1 v, ()) : Res (A × Unit))) (a, ()) =
      ok (vs.foldl f a, ()) := by
  induction vs generalizing a with
  | nil => rfl
  | cons v vs ih => simp [ih]

/-- **C03** for closures without state or panics: the ordinary left fold. -/
theorem C03_reduce_foldl {α A : Type} {w : Nat} (c : Cfg) (fuel : Nat) (data : List α)
    (d : Vector α w) (start : A) (f : A → Vector α w → A)
    (hw : 0 < w) (hlen : data.length + w < c.usize) (hfuel : data.length / w < fuel) :
    simdReduce c fuel (simdIter data d) start () (fun _ acc v => ok (f acc v, ())) =
      ok (⟨data.length, ⟨data⟩, d⟩, (calls w d data).foldl f start, ()) := by
  rw [C03_reduce_fold c fuel data d start () _ hw hlen hfuel]
  have := foldlM_pure f (calls w d data) start
  exact (congrArg (· >>= fun p => ok (_, p.1, p.2)) this).trans rfl

/-- **C03**, empty collection: the closure is not called. -/
theorem C03_reduce_empty {α A σ : Type} {w : Nat} (c : Cfg) (fuel : Nat)
    (d : Vector α w) (start : A) (st : σ) (f : σ → A → Vector α w → Res (A × σ))
    (hw : 0 < w) (hlen : w < c.usize) (hfuel : 0 < fuel) :
    simdReduce c fuel (simdIter [] d) start st f = ok (⟨0, ⟨[]⟩, d⟩, start, st) := by
  rw [C03_reduce_fold c fuel [] d start st f hw (by simpa using hlen) (by simpa using hfuel)]
  have : calls w d [] = [] := by simp [calls, fullWindows_short (l := ([] : List α)) hw]
  rw [this]; rfl

example : (do
    let (_, acc, _) ← simdReduce debug64 3 (simdIter (w := 2) [1#32, 2, 3, 4, 5] #v[0#32, 0])
      #v[0#32, 0] () (fun _ acc v => ok (acc.zipWith (· - ·) v, ()))
    ok acc) = ok #v[-(4#32), -(11#32)] := by decide +kernel

/-! ### C04 -/

theorem foldl_op {M : Type} (op : M → M → M) (e : M) (hassoc : ∀ a b c, op (op a b) c = op a (op b c))
    (hid : ∀ a, op e a = a) (hid' : ∀ a, op a e = a) (l : List M) (x : M) :
    l.foldl op x = op x (l.foldl op e) := by
  induction l generalizing x with
  | nil => simp [hid']
  | cons y l ih =>
    rw [List.foldl_cons, ih, List.foldl_cons, ih (op e y), hid, hassoc]

theorem foldl_zipWith {M : Type} (op : M → M → M) (e : M)
    (hassoc : ∀ a b c, op (op a b) c = op a (op b c)) (hcomm : ∀ a b, op a b = op b a)
    (hid : ∀ a, op e a = a) :
    ∀ (a b : List M), a.length = b.length →
      (List.zipWith op a b).foldl op e = op (a.foldl op e) (b.foldl op e) := by
  have hid' : ∀ a, op a e = a := fun a => by rw [hcomm, hid]
  intro a
  induction a with
  | nil => intro b h; cases b with
    | nil => simp [hid]
    | cons _ _ => simp at h
  | cons x a ih =>
    intro b h
    cases b with
    | nil => simp at h
    | cons y b =>
      simp only [List.zipWith_cons_cons, List.foldl_cons, hid]
      rw [foldl_op op e hassoc hid hid' _ (op x y), ih b (by simpa using h),
        foldl_op op e hassoc hid hid' a x, foldl_op op e hassoc hid hid' b y]
      rw [hassoc, hassoc, ← hassoc y, hcomm y, hassoc]

theorem scalarReduceLoop_ok {α τ : Type} {w : Nat} (v : Vector α w) (f : τ → α → Res τ) :
    ∀ (n i : Nat) (acc : τ), i + n = w →
      Packed.scalarReduceLoop v f n i acc = (v.toList.drop i).foldlM f acc := by
  intro n
  induction n with
  | zero =>
    intro i acc h
    rw [List.drop_eq_nil_of_le (by simp; omega)]
    rfl
  | succ n ih =>
    intro i acc h
    have hi : i < v.toList.length := by simp; omega
    rw [List.drop_eq_getElem_cons hi, List.foldlM_cons]
    simp only [Packed.scalarReduceLoop, Packed.extract, dif_pos (show i < w by omega), ok_bind]
    congr 1
    funext acc'
    exact ih (i + 1) acc' (by omega)

theorem foldlM_ok {A B : Type} (f : A → B → A) (vs : List B) (a : A) :
    vs.foldlM (fun p v => (ok (f p v) : Res A)) a = ok (vs.foldl f a) := by
  induction vs generalizing a with
  | nil => rfl
  | cons v vs ih => simp [ih]

/-- **C04.** Vectorised reduction with a commutative monoid, followed by the
lane reduction `scalar_reduce`, equals the scalar reduction of the collection,
whatever the width. -/
theorem C04_monoid_reduce {M : Type} {w : Nat} (c : Cfg) (fuel : Nat) (data : List M)
    (op : M → M → M) (e : M)
    (hassoc : ∀ a b c, op (op a b) c = op a (op b c)) (hcomm : ∀ a b, op a b = op b a)
    (hid : ∀ a, op e a = a)
    (hw : 0 < w) (hlen : data.length + w < c.usize) (hfuel : data.length / w < fuel) :
    (do
      let (_, acc, _) ← simdReduce c fuel (simdIter (w := w) data (Packed.splat e))
        (Packed.splat e) () (fun _ acc v => ok (acc.zipWith op v, ()))
      Packed.scalarReduce acc e (fun a x => ok (op a x))) = ok (data.foldl op e) := by
  have hid' : ∀ a, op a e = a := fun a => by rw [hcomm, hid]
  have he := foldl_op op e hassoc hid hid'
  have h3 := C03_reduce_foldl c fuel data (Packed.splat e) (Packed.splat e)
    (fun (acc v : Vector M w) => acc.zipWith op v) hw hlen hfuel
  rw [h3]
  simp only [ok_bind, Packed.scalarReduce]
  rw [scalarReduceLoop_ok _ _ w 0 e (by omega), List.drop_zero, foldlM_ok]
  congr 1
  have step : ∀ (vs : List (Vector M w)) (acc : Vector M w),
      (vs.foldl (fun acc v => acc.zipWith op v) acc).toList.foldl op e =
        op (acc.toList.foldl op e) ((lanes vs).foldl op e) := by
    intro vs
    induction vs with
    | nil => intro acc; simp [hid']
    | cons v vs ih =>
      intro acc
      rw [List.foldl_cons, ih, lanes_cons, List.foldl_append, he (lanes vs) (List.foldl op e _),
        ← hassoc]
      congr 1
      have : (acc.zipWith op v).toList = List.zipWith op acc.toList v.toList := by
        apply List.ext_getElem <;> simp
      rw [this, foldl_zipWith op e hassoc hcomm hid _ _ (by simp)]
  have hrep : ∀ n, (List.replicate n e).foldl op e = e := by
    intro n; induction n with
    | zero => rfl
    | succ n ih => rw [List.replicate_succ, List.foldl_cons, hid, ih]
  rw [step, Packed.splat, Vector.toList_replicate, hrep, hid]
  have key := lanes_fullWindows hw data
  have hl := leftover_length w data
  have hm := Nat.mod_lt data.length hw
  conv => rhs; rw [← key]
  rw [calls, lanes_append, List.foldl_append, List.foldl_append]
  split
  · have : leftover w data = [] := List.eq_nil_of_length_eq_zero (by omega)
    rw [this]; rfl
  · rw [he, he (leftover w data)]
    congr 1
    have hpad := padFront_drop (Vector.replicate w e) (leftover w data) (by omega)
    have htake : (padFront (Vector.replicate w e) (leftover w data)).toList.take
        (w - (leftover w data).length) = List.replicate (w - (leftover w data).length) e := by
      apply List.ext_getElem
      · simp
      · intro i h1 h2
        simp only [List.length_replicate] at h2
        simp only [List.getElem_take, Vector.getElem_toList, List.getElem_replicate]
        rw [padFront_getElem _ _ _ _ (by omega), dif_pos h2]
        simp
    rw [lanes_cons, lanes_nil, List.append_nil,
      ← List.take_append_drop (w - (leftover w data).length)
        (padFront (Vector.replicate w e) (leftover w data)).toList, hpad, htake,
      List.foldl_append, hrep]

example : (do
    let (_, acc, _) ← simdReduce debug64 3 (simdIter (w := 2) [1, 2, 3, 4, 5] (Packed.splat 0))
      (Packed.splat 0) () (fun _ acc v => ok (acc.zipWith (· + ·) v, ()))
    Packed.scalarReduce acc 0 (fun a x => ok (a + x))) = ok 15 :=
  C04_monoid_reduce debug64 3 [1, 2, 3, 4, 5] (· + ·) 0 Nat.add_assoc Nat.add_comm Nat.zero_add
    (by decide) (by decide) (by decide)

/-! ### C06 -/

theorem unpad_flatMap {α β : Type} {w w' : Nat} (ex : α → List β) (k pad : Nat)
    (hex : ∀ x, (ex x).length = k) (f : Vector α w → Vector β w')
    (hf : ∀ v, (f v).toList = v.toList.flatMap ex) (us : List (Vector α w)) :
    unpad (pad * k) (us.map f) = (unpad pad us).flatMap ex := by
  have hdrop : ∀ (n : Nat) (l : List α), (l.flatMap ex).drop (n * k) = (l.drop n).flatMap ex := by
    intro n l
    induction l generalizing n with
    | nil => simp
    | cons x l ih =>
      cases n with
      | zero => simp
      | succ n =>
        rw [List.flatMap_cons, List.drop_succ_cons, ← ih n, List.drop_append,
          List.drop_eq_nil_of_le (by rw [hex, Nat.succ_mul]; omega), hex, List.nil_append]
        congr 1; rw [Nat.succ_mul]; omega
  have hlanes : ∀ l : List (Vector α w), lanes (l.map f) = (lanes l).flatMap ex := by
    intro l
    induction l with
    | nil => rfl
    | cons v l ih => simp [ih, hf]
  rcases List.eq_nil_or_concat us with rfl | ⟨l, u, rfl⟩
  · rfl
  · rw [List.concat_eq_append, List.map_append, List.map_cons, List.map_nil, unpad_concat,
      unpad_concat, hlanes, hf, hdrop, List.flatMap_append]

/-- **C06.** If the closure turns every input lane into `k` output lanes `ex x`
of `1/k` of its size, collecting returns the `k` outputs of every element, in
order, also for the partial last vector. -/
theorem C06_widening_collect {α β : Type} [Packable α] [Packable β] {w w' k : Nat} (c : Cfg)
    (fuel : Nat) (data : List α) (d : Vector α w) (ex : α → List β)
    (f : Vector α w → Vector β w')
    (hex : ∀ x, (ex x).length = k) (hf : ∀ v, (f v).toList = v.toList.flatMap ex)
    (hw : 0 < w) (hk : 0 < k) (hw' : w' = w * k)
    (hs : 0 < Packable.size β) (hsize : Packable.size α = k * Packable.size β)
    (hlen : data.length + w < c.usize) (hlen' : (data.length / w + 1) * w' < c.usize)
    (hvec : w * Packable.size α < c.usize) (hfuel : data.length / w < fuel) :
    scalarCollect c fuel (simdMap (simdIter data d) () (pureFn f)) =
      ok (⟨⟨data.length, ⟨data⟩, d⟩, (), pureFn f⟩, (data.flatMap ex).map some) := by
  subst hw'
  rw [C05_collect_any_closure c fuel data d () _ hw (Nat.mul_pos hw hk) hs
    (by rw [hsize, Nat.mul_assoc]) hlen hlen' hvec hfuel, callAll_pure]
  simp only [ok_bind]
  rw [hsize, ← Nat.mul_assoc, Nat.mul_div_cancel _ hs, unpad_flatMap ex k _ hex f hf,
    unpad_calls hw]

/-- Three 16-bit elements reinterpreted as bytes, two lanes per vector. -/
example : (do
    let (_, out) ← scalarCollect debug64 2
      (simdMap (simdIter (w := 2) [0x0201#16, 0x0403, 0x0605] #v[0#16, 0]) ()
        (pureFn (fun v => (#v[v[0].extractLsb' 0 8, v[0].extractLsb' 8 8, v[1].extractLsb' 0 8,
          v[1].extractLsb' 8 8] : Vector (BitVec 8) 4))))
    ok out) = ok ([1#8, 2, 3, 4, 5, 6].map some) := by
  rw [C06_widening_collect (k := 2) debug64 2 _ _
    (fun x : BitVec 16 => [x.extractLsb' 0 8, x.extractLsb' 8 8]) _ (fun _ => rfl)
    (fun v => by
      rcases v with ⟨⟨l⟩, h⟩
      match l, h with
      | [a, b], _ => rfl)
    (by decide) (by decide) rfl (by decide) rfl (by decide) (by decide) (by decide) (by decide)]
  rfl

end Faster
