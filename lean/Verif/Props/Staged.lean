import Verif.Props.Split
import Verif.Props.FusionAll
import Verif.Props.Protocol
/-
C151: pipelines which collect an intermediate result before they go on.
-/
namespace Faster
open Res

variable {α β γ σ τ A : Type} {w w' w'' : Nat} {c : Cfg}

/-- Reading a `Vec` of which the model knows which elements have been written: undefined behaviour if
one has not. -/
def readVec : List (Option β) → Res (List β)
  | [] => ok []
  | some x :: l => readVec l >>= fun l => ok (x :: l)
  | none :: _ => ub

/-- The last vector with its first `p` lanes taken from `d`. -/
def repad (p : Nat) (d : Vector β w) (vs : List (Vector β w)) : List (Vector β w) :=
  vs.dropLast ++ vs.getLast?.toList.map fun v => Vector.ofFn fun j => if j.val < p then d[j] else v[j]

/-- The lanes of the last vector which hold no results of elements. -/
def padCount (w : Nat) (n sa sb : Nat) : Nat := (w - n % w) % w * sa / sb

theorem readVec_some (l : List β) : readVec (l.map some) = ok l := by
  induction l with
  | nil => rfl
  | cons x l ih => simp [readVec, ih]

theorem calls_exact (hw : 0 < w) (d : Vector β w) (vs : List (Vector β w)) :
    calls w d (lanes vs) = vs := by
  induction vs with
  | nil => simp [lanes, calls_nil]
  | cons v vs ih =>
    have e : lanes (v :: vs) = v.toList ++ lanes vs := by simp [lanes]
    have h : w ≤ (lanes (v :: vs)).length := by rw [e]; simp
    rw [calls_cons hw d h]
    congr 1
    · ext j hj
      simp only [windowAt, Vector.getElem_ofFn, e]
      rw [List.getElem_append_left (by simpa using hj)]
      simp
    · have : (lanes (v :: vs)).drop w = lanes vs := by
        rw [e, List.drop_left' (by simp)]
      rw [this, ih]

/-- The calls of a pass over results without the first `p` lanes of the last vector. -/
theorem calls_unpad (hw : 0 < w) (d : Vector β w) {p : Nat} (hp : p < w) (vs : List (Vector β w)) :
    calls w d (unpad p vs) = repad p d vs := by
  rcases List.eq_nil_or_concat vs with rfl | ⟨l, u, rfl⟩
  · simp [unpad, repad, lanes, calls_nil]
  · rw [List.concat_eq_append, unpad_concat, calls_append hw d _ l.length _ (by simp [lanes_length]),
      calls_exact hw]
    simp only [repad, List.dropLast_concat, List.getLast?_append, List.getLast?_singleton,
      Option.some_or, Option.toList_some, List.map_cons, List.map_nil]
    congr 1
    by_cases h0 : p = 0
    · subst h0
      have e : u.toList.drop 0 = lanes [u] := by simp [lanes]
      rw [e, calls_exact hw]
      simp
    · rw [calls_short d (by simp; omega) (by simp; omega)]
      congr 1
      ext j hj
      rw [padFront_getElem _ _ _ hj (by simp)]
      simp only [Vector.getElem_ofFn, List.length_drop, Vector.length_toList, List.getElem_drop]
      by_cases hj' : j < p
      · rw [dif_pos (by omega), if_pos hj']; rfl
      · rw [dif_neg (by omega), if_neg hj']
        simp only [Vector.getElem_toList]
        have e : p + (j - (w - (w - p))) = j := by omega
        simp only [e]
        rfl

theorem padCount_lt (hw : 0 < w) {sa sb : Nat} (hs : 0 < sb) (hsize : w * sa = w' * sb) (hw' : 0 < w')
    (n : Nat) : padCount w n sa sb < w' := by
  unfold padCount
  rw [Nat.div_lt_iff_lt_mul hs, ← hsize]
  have : 0 < sa := by
    rcases Nat.eq_zero_or_pos sa with h | h
    · subst h
      have := Nat.mul_pos hw' hs
      omega
    · exact h
  exact Nat.mul_lt_mul_of_pos_right (Nat.mod_lt _ hw) this

theorem unpad_length_le (p : Nat) (vs : List (Vector β w)) : (unpad p vs).length ≤ vs.length * w := by
  rcases List.eq_nil_or_concat vs with rfl | ⟨l, u, rfl⟩
  · simp [unpad, lanes]
  · rw [List.concat_eq_append, unpad_concat]
    simp [lanes_length, Nat.succ_mul]

theorem calls_length_le (d : Vector α w) (data : List α) :
    (calls w d data).length ≤ data.length / w + 1 := by
  unfold calls
  rw [List.length_append, fullWindows_length]
  split <;> simp

/-- The length of the results tells how many lanes were dropped. -/
theorem unpad_pad {p : Nat} (l : List (Vector β w)) (u : Vector β w) (hp : p < w) :
    (w - (unpad p (l.concat u)).length % w) % w = p := by
  rw [List.concat_eq_append, unpad_concat, List.length_append, lanes_length, List.length_drop,
    Vector.length_toList, Nat.mul_comm, Nat.mul_add_mod]
  rcases Nat.eq_zero_or_pos p with rfl | h
  · simp
  · rw [Nat.mod_eq_of_lt (show w - p < w by omega), Nat.mod_eq_of_lt (by omega)]
    omega

section
variable [Packable α] [Packable β] (data : List α) (d : Vector α w) (d' : Vector β w')
  (s : σ) (f : FnMut σ (Vector α w) (Vector β w'))

/-- A first pass which collects, then the program `next` on the collected `Vec`. -/
def staged {ρ : Type} (c : Cfg) (fuel : Nat) (next : List β → Res ρ) : Res ρ := do
  let (_, mid) ← scalarCollect c fuel (simdMap (simdIter data d) s f)
  let mid ← readVec mid
  next mid

theorem staged_eq {ρ : Type} (fuel : Nat) (next : List β → Res ρ)
    (hw : 0 < w) (hw' : 0 < w') (hs : 0 < Packable.size β)
    (hsize : w * Packable.size α = w' * Packable.size β)
    (hlen : data.length + w < c.usize) (hlen' : (data.length / w + 1) * w' < c.usize)
    (hvec : w * Packable.size α < c.usize) (hfuel : data.length / w < fuel) :
    staged data d s f c fuel next = callAll f s (calls w d data) >>= fun q =>
      next (unpad (padCount w data.length (Packable.size α) (Packable.size β)) q.1) := by
  unfold staged
  rw [C05_collect_any_closure c fuel data d s f hw hw' hs hsize hlen hlen' hvec hfuel]
  simp only [bind_assoc]
  congr 1
  funext q
  simp only [ok_bind, readVec_some]
  rfl

omit [Packable α] [Packable β] in
theorem mid_bounds {outs : List (Vector β w')} {s' : σ} (p : Nat) (hw' : 0 < w')
    (h : callAll f s (calls w d data) = ok (outs, s')) :
    (unpad p outs).length ≤ (data.length / w + 1) * w' ∧
    (unpad p outs).length / w' ≤ data.length / w + 1 := by
  have h1 := unpad_length_le p outs
  have h2 := calls_length_le d data
  rw [← callAll_length f s _ h] at h2
  have h3 : (unpad p outs).length ≤ (data.length / w + 1) * w' :=
    Nat.le_trans h1 (Nat.mul_le_mul_right _ h2)
  refine ⟨h3, ?_⟩
  calc _ ≤ (data.length / w + 1) * w' / w' := Nat.div_le_div_right h3
    _ = _ := Nat.mul_div_cancel _ hw'

/-- **C151**, reduction: with any two closures, the second one is called on the results of the first
one, except that the lanes of the last vector which hold no results have the default of the second
iterator. -/
theorem C151_reduce (fuel fuel' : Nat) (start : A) (t : τ) (g : τ → A → Vector β w' → Res (A × τ))
    (hw : 0 < w) (hw' : 0 < w') (hs : 0 < Packable.size β)
    (hsize : w * Packable.size α = w' * Packable.size β)
    (hlen : data.length + w < c.usize) (hlen' : (data.length / w + 1) * w' + w' < c.usize)
    (hvec : w * Packable.size α < c.usize) (hfuel : data.length / w < fuel)
    (hfuel' : data.length / w + 1 < fuel') :
    (staged data d s f c fuel fun mid => do
      let (_, acc) ← simdReduce c fuel' (simdIter mid d') start t g
      ok acc) = (do
      let (outs, _) ← callAll f s (calls w d data)
      (repad (padCount w data.length (Packable.size α) (Packable.size β)) d' outs).foldlM
        (fun (q : A × τ) v => g q.2 q.1 v) (start, t)) := by
  rw [staged_eq data d s f fuel _ hw hw' hs hsize hlen (by omega) hvec hfuel]
  cases h : callAll f s (calls w d data) with
  | ok q =>
    obtain ⟨outs, s'⟩ := q
    obtain ⟨h1, h2⟩ := mid_bounds data d s f
      (padCount w data.length (Packable.size α) (Packable.size β)) hw' h
    simp only [ok_bind]
    rw [C03_reduce_fold c fuel' _ d' start t g hw' (by omega) (by omega),
      calls_unpad hw' d' (padCount_lt hw hs hsize hw' _)]
    simp only [bind_assoc, ok_bind]
    cases List.foldlM (fun (q : A × τ) v => g q.2 q.1 v) (start, t) (repad _ d' outs) <;> rfl
  | panic => rfl
  | ub => rfl
  | hang => rfl

/-- **C151**, collecting again, likewise. -/
theorem C151_collect [Packable γ] (fuel fuel' : Nat) (t : τ) (g : FnMut τ (Vector β w') (Vector γ w''))
    (hw : 0 < w) (hw' : 0 < w') (hw'' : 0 < w'') (hs : 0 < Packable.size β) (hs' : 0 < Packable.size γ)
    (hsize : w * Packable.size α = w' * Packable.size β)
    (hsize' : w' * Packable.size β = w'' * Packable.size γ)
    (hlen : data.length + w < c.usize) (hlen' : (data.length / w + 1) * w' + w' < c.usize)
    (hlen'' : (data.length / w + 2) * w'' < c.usize)
    (hvec : w * Packable.size α < c.usize) (hfuel : data.length / w < fuel)
    (hfuel' : data.length / w + 1 < fuel') :
    (staged data d s f c fuel fun mid => do
      let (_, out) ← scalarCollect c fuel' (simdMap (simdIter mid d') t g)
      ok out) = (do
      let (outs, _) ← callAll f s (calls w d data)
      let p := padCount w data.length (Packable.size α) (Packable.size β)
      let (outs', _) ← callAll g t (repad p d' outs)
      ok ((unpad (p * Packable.size β / Packable.size γ) outs').map some)) := by
  rw [staged_eq data d s f fuel _ hw hw' hs hsize hlen (by omega) hvec hfuel]
  cases h : callAll f s (calls w d data) with
  | ok q =>
    obtain ⟨outs, s'⟩ := q
    have hp := padCount_lt hw hs hsize hw' data.length
    obtain ⟨h1, h2⟩ := mid_bounds data d s f
      (padCount w data.length (Packable.size α) (Packable.size β)) hw' h
    simp only [ok_bind]
    rw [C05_collect_any_closure c fuel' _ d' t g hw' hw'' hs' hsize' (by omega)
      (Nat.lt_of_le_of_lt (Nat.mul_le_mul_right _ (by omega)) hlen'') (by omega) (by omega),
      calls_unpad hw' d' hp]
    simp only [bind_assoc, ok_bind]
    rcases List.eq_nil_or_concat outs with rfl | ⟨l, u, rfl⟩
    · simp [repad, callAll, unpad, lanes]
    · rw [unpad_pad l u hp]
  | panic => rfl
  | ub => rfl
  | hang => rfl

end

/-! ### Comparison with one pass -/

/-- The lanes of the last result of `F` which hold no results are those of `d'`. -/
def PadsLike (p : Nat) (d' : Vector β w) (vs : List (Vector β w)) : Prop :=
  ∀ v ∈ vs.getLast?, ∀ j (_ : j < w), j < p → v[j] = d'[j]

theorem repad_eq_iff (p : Nat) (d' : Vector β w) (vs : List (Vector β w)) :
    repad p d' vs = vs ↔ PadsLike p d' vs := by
  rcases List.eq_nil_or_concat vs with rfl | ⟨l, u, rfl⟩
  · simp [repad, PadsLike]
  · simp only [repad, PadsLike, List.concat_eq_append, List.dropLast_concat, List.getLast?_append,
      List.getLast?_singleton, Option.some_or, Option.toList_some, List.map_cons, List.map_nil,
      List.append_cancel_left_eq, List.cons.injEq, and_true, Option.mem_def, Option.some.injEq,
      forall_eq']
    constructor
    · intro h j hj hp
      have := congrArg (fun v => v[j]) h
      simp only [Vector.getElem_ofFn, if_pos hp] at this
      exact this.symm
    · intro h
      ext j hj
      simp only [Vector.getElem_ofFn]
      split
      · exact (h j hj ‹_›).symm
      · rfl

theorem foldlM_pure_map {B C : Type} (F : B → C) (g : τ → A → C → Res (A × τ)) (vs : List B)
    (q : A × τ) :
    vs.foldlM (fun (p : A × (Unit × τ)) v => (do
        let (u, s) ← pureFn F p.2.1 v
        let (acc, t) ← g p.2.2 p.1 u
        ok (acc, (s, t)) : Res (A × (Unit × τ)))) (q.1, ((), q.2)) =
      (vs.map F).foldlM (fun (q : A × τ) v => g q.2 q.1 v) q >>= fun r => ok (r.1, ((), r.2)) := by
  induction vs generalizing q with
  | nil => rfl
  | cons v vs ih =>
    simp only [List.foldlM_cons, List.map_cons, pureFn, ok_bind, bind_assoc] at ih ⊢
    cases h : g q.2 q.1 (F v) with
    | ok r => simpa [ok_bind] using ih r
    | panic => rfl
    | ub => rfl
    | hang => rfl

section
variable [Packable α] [Packable β] (data : List α) (d : Vector α w) (d' : Vector β w')
  (F : Vector α w → Vector β w')

theorem fused_reduce (fuel : Nat) (start : A) (t : τ) (g : τ → A → Vector β w' → Res (A × τ))
    (hw : 0 < w) (hs : 0 < Packable.size β) (hlen : data.length + w < c.usize)
    (hvec : w * Packable.size α < c.usize) (hfuel : data.length / w < fuel) :
    (do
      let (_, acc) ← simdReduce c fuel (simdMap (simdIter data d) () (pureFn F)) start t g
      ok acc) = ((calls w d data).map F).foldlM (fun (q : A × τ) v => g q.2 q.1 v) (start, t) := by
  rw [C02_map_reduce c fuel data d start () t (pureFn F) g hw hs hlen hvec hfuel,
    foldlM_pure_map F g (calls w d data) (start, t)]
  simp only [bind_assoc, ok_bind]
  cases List.foldlM (fun (q : A × τ) v => g q.2 q.1 v) (start, t) ((calls w d data).map F) <;> rfl

/-- **C151**, partial: if the closure of the map returns the default of the second iterator in the
lanes of the last vector which hold no results, or if there are no such lanes, then any reduction of
the map gives what it gives after collecting. Missing: other closures, see `C151_log_iff`. -/
theorem C151_reduce_partial (fuel fuel' : Nat) (start : A) (t : τ)
    (g : τ → A → Vector β w' → Res (A × τ))
    (hw : 0 < w) (hw' : 0 < w') (hs : 0 < Packable.size β)
    (hsize : w * Packable.size α = w' * Packable.size β)
    (hlen : data.length + w < c.usize) (hlen' : (data.length / w + 1) * w' + w' < c.usize)
    (hvec : w * Packable.size α < c.usize) (hfuel : data.length / w < fuel)
    (hfuel' : data.length / w + 1 < fuel')
    (hpad : PadsLike (padCount w data.length (Packable.size α) (Packable.size β)) d'
      ((calls w d data).map F)) :
    (staged data d () (pureFn F) c fuel fun mid => do
      let (_, acc) ← simdReduce c fuel' (simdIter mid d') start t g
      ok acc) = (do
      let (_, acc) ← simdReduce c fuel (simdMap (simdIter data d) () (pureFn F)) start t g
      ok acc) := by
  rw [C151_reduce data d d' () (pureFn F) fuel fuel' start t g hw hw' hs hsize hlen hlen' hvec hfuel
    hfuel', fused_reduce data d F fuel start t g hw hs hlen hvec hfuel, callAll_pure]
  simp only [ok_bind]
  rw [(repad_eq_iff _ _ _).2 hpad]

/-- **C151**: exactly then. The closure which records the vectors it sees tells the difference. -/
theorem C151_log_iff (fuel fuel' : Nat)
    (hw : 0 < w) (hw' : 0 < w') (hs : 0 < Packable.size β)
    (hsize : w * Packable.size α = w' * Packable.size β)
    (hlen : data.length + w < c.usize) (hlen' : (data.length / w + 1) * w' + w' < c.usize)
    (hvec : w * Packable.size α < c.usize) (hfuel : data.length / w < fuel)
    (hfuel' : data.length / w + 1 < fuel') :
    (staged data d () (pureFn F) c fuel fun mid => do
      let (_, acc) ← simdReduce c fuel' (simdIter mid d') [] () fun _ log v => ok (log ++ [v], ())
      ok acc) = (do
      let (_, acc) ← simdReduce c fuel (simdMap (simdIter data d) () (pureFn F)) [] ()
        fun _ log v => ok (log ++ [v], ())
      ok acc) ↔
    PadsLike (padCount w data.length (Packable.size α) (Packable.size β)) d'
      ((calls w d data).map F) := by
  have hlog (l vs : List (Vector β w')) :
      vs.foldlM (fun (q : List (Vector β w') × Unit) v => (ok (q.1 ++ [v], ()) : Res _)) (l, ()) =
        ok (l ++ vs, ()) := by
    induction vs generalizing l with
    | nil => simp
    | cons v vs ih => simp [List.foldlM_cons, ih]
  rw [C151_reduce data d d' () (pureFn F) fuel fuel' _ _ _ hw hw' hs hsize hlen hlen' hvec hfuel
    hfuel', fused_reduce data d F fuel _ _ _ hw hs hlen hvec hfuel, callAll_pure]
  simp only [ok_bind]
  rw [hlog, hlog, ← repad_eq_iff]
  simp

/-- In particular collections of whole vectors. -/
theorem C151_whole (h : data.length % w = 0) :
    PadsLike (padCount w data.length (Packable.size α) (Packable.size β)) d'
      ((calls w d data).map F) := by
  intro v _ j _ hj
  unfold padCount at hj
  rw [h] at hj
  simp at hj

end

theorem callAll_compose (f : FnMut σ (Vector α w) (Vector β w'))
    (G : Vector β w' → Vector γ w'') (vs : List (Vector α w)) (s : σ) :
    callAll (composeFn f (pureFn G)) (s, ()) vs =
      callAll f s vs >>= fun q => ok (q.1.map G, (q.2, ())) := by
  induction vs generalizing s with
  | nil => rfl
  | cons v vs ih =>
    simp only [callAll, composeFn, pureFn, bind_assoc, ok_bind] at ih ⊢
    congr 1
    funext q
    rw [ih]
    simp only [bind_assoc, ok_bind, List.map_cons]

theorem unpad_repad_map (k : β → γ) (p : Nat) (d' : Vector β w) (vs : List (Vector β w)) :
    unpad p ((repad p d' vs).map (Vector.map k)) = unpad p (vs.map (Vector.map k)) := by
  rcases List.eq_nil_or_concat vs with rfl | ⟨l, u, rfl⟩
  · rfl
  · simp only [repad, List.concat_eq_append, List.dropLast_concat, List.getLast?_append,
      List.getLast?_singleton, Option.some_or, Option.toList_some, List.map_cons, List.map_nil,
      List.map_append, unpad_concat, List.append_cancel_left_eq]
    apply List.ext_getElem
    · simp
    · intro i h1 h2
      simp only [List.getElem_drop, Vector.getElem_toList, Vector.getElem_map, Vector.getElem_ofFn]
      rw [if_neg (by omega)]
      rfl

/-- **C151**: if the second closure is lane-wise, collecting in between never changes what is
collected, whatever the first closure does. (The composed closure is the map of the map, C55.) -/
theorem C151_lanewise [Packable α] [Packable β] [Packable γ] (data : List α) (d : Vector α w)
    (d' : Vector β w') (s : σ) (f : FnMut σ (Vector α w) (Vector β w')) (k : β → γ) (fuel fuel' : Nat)
    (hw : 0 < w) (hw' : 0 < w') (hs : 0 < Packable.size β)
    (hsize : w * Packable.size α = w' * Packable.size β) (hsize' : Packable.size β = Packable.size γ)
    (hlen : data.length + w < c.usize) (hlen' : (data.length / w + 2) * w' < c.usize)
    (hvec : w * Packable.size α < c.usize) (hfuel : data.length / w < fuel)
    (hfuel' : data.length / w + 1 < fuel') :
    (staged data d s f c fuel fun mid => do
      let (_, out) ← scalarCollect c fuel' (simdMap (simdIter mid d') () (pureFn (Vector.map k)))
      ok out) = (do
      let (_, out) ← scalarCollect c fuel
        (simdMap (simdIter data d) (s, ()) (composeFn f (pureFn (Vector.map k))))
      ok out) := by
  have h2 : (data.length / w + 2) * w' = (data.length / w + 1) * w' + w' := by
    rw [← Nat.succ_mul]
  rw [C151_collect data d d' s f fuel fuel' () _ hw hw' hw' hs (by omega) hsize (by rw [hsize'])
    hlen (by omega) hlen' hvec hfuel hfuel',
    C05_collect_any_closure c fuel data d _ _ hw hw' (by omega) (by rw [hsize, hsize']) hlen
      (by omega) hvec hfuel, callAll_compose]
  simp only [bind_assoc, ok_bind]
  congr 1
  funext q
  rw [callAll_pure]
  simp only [ok_bind]
  rw [← hsize', Nat.mul_div_cancel _ hs]
  exact congrArg (fun l => ok (l.map some)) (unpad_repad_map k _ d' q.1)

/-- Doubling maps zeros to zeros, so the hypothesis of `C151_reduce_partial` holds with defaults of
zero, also for an incomplete last vector; adding one does not. -/
example : PadsLike (padCount 4 5 1 1) (Packed.splat 0#8)
      ((calls 4 (Packed.splat 0#8) [1#8, 2, 3, 4, 5]).map (Vector.map (· * 2))) ∧
    ¬ PadsLike (padCount 4 5 1 1) (Packed.splat 0#8)
      ((calls 4 (Packed.splat 0#8) [1#8, 2, 3, 4, 5]).map (Vector.map (· + 1))) := by
  rw [← repad_eq_iff, ← repad_eq_iff]
  decide +kernel

/-- **C151** is false: counting the elements of `[1, 2, 3, 4, 5] + 1` (by adding up lanes) in one
pass also counts ones for the three missing elements of the last vector. -/
theorem C151_false :
    (do
      let (_, acc, _) ← simdReduce release64 9 (simdMap
        (simdIter (w := 4) [1#8, 2, 3, 4, 5] (Packed.splat 0)) ()
        (pureFn (Vector.map (· + 1)))) 0 () fun _ acc v => ok (acc + v.toList.sum, ())
      ok acc) = ok 23#8 ∧
    (staged [1#8, 2, 3, 4, 5] (Packed.splat 0 : Vector _ 4) () (pureFn (Vector.map (· + 1)))
      release64 9 fun mid => do
        let (_, acc, _) ← simdReduce release64 9 (simdIter (w := 4) mid (Packed.splat 0)) 0 ()
          fun _ acc v => ok (acc + v.toList.sum, ())
        ok acc) = ok 20#8 := by
  decide +kernel

end Faster
