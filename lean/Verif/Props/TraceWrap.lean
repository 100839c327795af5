import Verif.Props.Trace
/-
C76 in release builds, where `advance` may wrap the position around: the elements are handed out in
as many runs as the position wraps around, and one.
-/
namespace Faster
open Res SIMDSized SIMDIterable SIMDIterator

section
variable {α : Type} {w : Nat}

/-- How far a sequence of calls can move the position beyond the end of the collection. -/
def excess (len p : Nat) (ops : List IterOp) : Nat := max p len - len + advanced ops

theorem runs_from (c : Cfg) (data : List α) (d : Vector α w) (hlen : data.length + w < c.usize) :
    ∀ (ops : List IterOp) (p : Nat) (os : List (IterOut α w)) (it' : SIMDIter (Slice α w) α w),
    p < c.usize → runOps c (iterAt data d p) ops = ok (os, it') →
    ∃ (s : List α) (runs : List (List α)), os.flatMap IterOut.delivered = s ++ runs.flatten ∧
      s.Sublist (data.drop p) ∧ (∀ r ∈ runs, r.Sublist data) ∧
      runs.length * (c.usize - data.length) ≤ excess data.length p ops := by
  intro ops
  induction ops with
  | nil =>
    intro p os it' _ h
    simp only [runOps, ok.injEq, Prod.mk.injEq] at h
    rw [← h.1]
    exact ⟨[], [], rfl, List.nil_sublist _, by simp, by simp⟩
  | cons op ops ih =>
    intro p os it' hp h
    obtain ⟨o, os', q, rfl, -, hq, hm, hrun⟩ := runOps_cons_ok hlen hp h
    obtain ⟨s, runs, h1, h2, h3, h4⟩ := ih q os' it' hq hrun
    simp only [List.flatMap_cons, h1]
    cases op with
    | advance k =>
      obtain ⟨ho, hk⟩ := hm
      rw [ho, List.nil_append]
      simp only [excess, advanced] at h4 ⊢
      rcases hk with rfl | ⟨-, h5, rfl⟩
      · refine ⟨s, runs, rfl, h2.trans ?_, h3, by omega⟩
        rw [← List.drop_drop]
        exact List.drop_sublist _ _
      · refine ⟨[], s :: runs, rfl, List.nil_sublist _, ?_, ?_⟩
        · intro r hr
          rcases List.mem_cons.mp hr with rfl | hr
          · exact h2.trans (List.drop_sublist _ _)
          · exact h3 r hr
        · have h6 : (p + k) % c.usize ≤ p + k - c.usize := by
            rw [Nat.mod_eq_sub_mod h5]
            exact Nat.mod_le _ _
          rw [List.length_cons, Nat.succ_mul]
          omega
    | finalize =>
      obtain ⟨ho, rfl⟩ := hm
      rw [ho, List.nil_append]
      rw [List.drop_length] at h2
      rw [List.sublist_nil.mp h2]
      refine ⟨[], runs, rfl, List.nil_sublist _, h3, ?_⟩
      simp only [excess, advanced] at h4 ⊢
      omega
    | _ =>
      obtain ⟨ho, h5, h6⟩ := hm
      have e : data.drop p = (data.take q).drop p ++ data.drop q := by
        have := List.take_append_drop (q - p) (data.drop p)
        rw [List.drop_drop, Nat.add_sub_cancel' h5] at this
        rw [List.drop_take, this]
      refine ⟨o.delivered ++ s, runs, by simp, ?_, h3, ?_⟩
      · rw [e, ho]
        exact (List.Sublist.refl _).append h2
      · simp only [excess, advanced] at h4 ⊢
        omega

/-- **C76** without restriction: whatever calls are made in whatever order, the elements are handed
out in runs, each of which is in the order of the collection without repetitions. There is one run,
and one more for every `usize::MAX + 1 - len` by which the calls of `advance` exceed the end of the
collection. -/
theorem C76_runs (c : Cfg) (data : List α) (d : Vector α w) (hlen : data.length + w < c.usize)
    (ops : List IterOp) (p : Nat) (os : List (IterOut α w)) (it' : SIMDIter (Slice α w) α w)
    (hp : p < c.usize) (h : runOps c (iterAt data d p) ops = ok (os, it')) :
    ∃ runs : List (List α), os.flatMap IterOut.delivered = runs.flatten ∧
      (∀ r ∈ runs, r.Sublist data) ∧
      runs.length ≤ 1 + (max p data.length - data.length + advanced ops) / (c.usize - data.length) := by
  obtain ⟨s, runs, h1, h2, h3, h4⟩ := runs_from c data d hlen ops p os it' hp h
  refine ⟨s :: runs, h1, ?_, ?_⟩
  · intro r hr
    rcases List.mem_cons.mp hr with rfl | hr
    · exact h2.trans (List.drop_sublist _ _)
    · exact h3 r hr
  · have := (Nat.le_div_iff_mul_le (by omega)).mpr h4
    simp only [excess] at this
    rw [List.length_cons]
    omega

theorem count_flatten_le {α : Type} [BEq α] [LawfulBEq α] (x : α) (data : List α) :
    ∀ runs : List (List α), (∀ r ∈ runs, r.Sublist data) →
      runs.flatten.count x ≤ runs.length * data.count x := by
  intro runs
  induction runs with
  | nil => simp
  | cons r runs ih =>
    intro h
    have h1 := (h r (by simp)).count_le x
    have h2 := ih fun r hr => h r (by simp [hr])
    rw [List.flatten_cons, List.count_append, List.length_cons, Nat.succ_mul]
    omega

/-- **C76**: how often an element can be handed out. -/
theorem C76_at_most [BEq α] [LawfulBEq α] (c : Cfg) (data : List α) (d : Vector α w)
    (hlen : data.length + w < c.usize) (ops : List IterOp) (p : Nat) (os : List (IterOut α w))
    (it' : SIMDIter (Slice α w) α w) (hp : p < c.usize)
    (h : runOps c (iterAt data d p) ops = ok (os, it')) (x : α) :
    (os.flatMap IterOut.delivered).count x ≤
      (1 + (max p data.length - data.length + advanced ops) / (c.usize - data.length)) *
        data.count x := by
  obtain ⟨runs, h1, h2, h3⟩ := C76_runs c data d hlen ops p os it' hp h
  rw [h1]
  exact Nat.le_trans (count_flatten_le x data runs h2) (Nat.mul_le_mul_right _ h3)

/-- A pass over full vectors, and back to the start by an `advance` which wraps around. -/
def passAndWrap (c : Cfg) (len w : Nat) : List IterOp :=
  List.replicate (len / w) .next ++ [.advance (c.usize - len)]

theorem runOps_append {I : Type} [SIMDSized I] [SIMDIterator I α w] [SIMDArray I α w] (c : Cfg) :
    ∀ (a b : List IterOp) (it : I),
    runOps c it (a ++ b) = (do
      let (os, it) ← runOps c it a
      let (os', it) ← runOps c it b
      ok (os ++ os', it)) := by
  intro a
  induction a with
  | nil =>
    intro b it
    simp only [List.nil_append, runOps, ok_bind]
    cases runOps c it b <;> rfl
  | cons op a ih =>
    intro b it
    simp only [List.cons_append, runOps, ih, bind_assoc, ok_bind]

theorem runOps_nexts (c : Cfg) (data : List α) (d : Vector α w) (hlen : data.length + w < c.usize) :
    ∀ (n p : Nat), p + n * w ≤ data.length →
    ∃ os, runOps c (iterAt data d p) (List.replicate n .next) = ok (os, iterAt data d (p + n * w)) ∧
      os.flatMap IterOut.delivered = (data.drop p).take (n * w) := by
  intro n
  induction n with
  | zero => intro p _; exact ⟨[], by simp [runOps], by simp⟩
  | succ n ih =>
    intro p h
    rw [Nat.succ_mul] at h
    obtain ⟨os, h1, h2⟩ := ih (p + w) (by omega)
    refine ⟨.vec (some (windowAt data p w (by omega))) :: os, ?_, ?_⟩
    · rw [List.replicate_succ, runOps, IterOp.step, next_exact c data d p hlen (by omega),
        dif_pos (by omega)]
      simp only [ok_bind, h1]
      rw [show p + w + n * w = p + (n + 1) * w by rw [Nat.succ_mul]; omega]
    · rw [List.flatMap_cons, h2, IterOut.delivered, windowAt_toList, ← List.drop_drop,
        Nat.succ_mul, Nat.add_comm (n * w) w, List.take_add]

/-- **C76**: the bound of `C76_runs` is reached: in release builds a collection of full vectors can
be handed out any number of times. -/
theorem C76_repeats (c : Cfg) (hc : c.debug = false) (data : List α) (d : Vector α w)
    (hlen : data.length + w < c.usize) (hd : w ∣ data.length) (n : Nat) :
    ∃ os, runOps c (simdIter data d)
        (List.replicate n (passAndWrap c data.length w)).flatten = ok (os, simdIter data d) ∧
      os.flatMap IterOut.delivered = (List.replicate n data).flatten := by
  induction n with
  | zero => exact ⟨[], rfl, rfl⟩
  | succ n ih =>
    obtain ⟨os, h1, h2⟩ := ih
    have h3 : data.length / w * w = data.length := Nat.div_mul_cancel hd
    obtain ⟨os', h4, h5⟩ := runOps_nexts c data d hlen (data.length / w) 0 (by omega)
    rw [Nat.zero_add, h3] at h4
    rw [h3, List.drop_zero, List.take_length] at h5
    have h6 : runOps c (simdIter data d) (passAndWrap c data.length w) =
        ok (os' ++ [.unit], simdIter data d) := by
      rw [passAndWrap, runOps_append]
      rw [show simdIter data d = iterAt data d 0 from rfl, h4]
      simp only [ok_bind, runOps, IterOp.step, advance_exact, hc]
      rw [if_neg (by omega), show data.length + (c.usize - data.length) = c.usize by omega]
      simp
    refine ⟨os' ++ [.unit] ++ os, ?_, ?_⟩
    · rw [List.replicate_succ, List.flatten_cons, runOps_append, h6]
      simp only [ok_bind, h1]
    · rw [List.replicate_succ, List.flatten_cons, List.flatMap_append, List.flatMap_append, h2, h5]
      simp [IterOut.delivered]

/-- Two passes over two bytes, in a release build with 64-bit `usize`. -/
example : (runOps release64 (simdIter (w := 2) [7#8, 8] #v[0, 0])
      [.next, .advance (2 ^ 64 - 2), .next]).bind
      (fun r => ok (r.1.flatMap IterOut.delivered)) = ok [7, 8, 7, 8] := by decide +kernel

end
end Faster
