import Verif.Debug
/-
C94: diagnostics are printed once per thread.
-/
namespace Faster
open Res

/-- The messages thread `t` reported while standard output could be written, in
order. -/
def printable (t : Nat) (rs : List Report) : List String :=
  (rs.filter fun r => r.thread = t ∧ r.printOk).map (·.msg)

/-- The lines thread `t` wrote. -/
def linesOf (t : Nat) (out : List (Nat × String)) : List String :=
  (out.filter fun p => p.1 = t).map (·.2)

/-- First occurrences, in order. -/
def firsts : List String → List String
  | [] => []
  | m :: ms => m :: (firsts ms).filter (· ≠ m)

/-- What a thread writes for its messages if it has written `seen` already. -/
def newOnes (seen : List String) : List String → List String
  | [] => []
  | m :: ms => if m ∈ seen then newOnes seen ms else m :: newOnes (m :: seen) ms

theorem newOnes_filter (seen ms : List String) :
    newOnes seen ms = (firsts ms).filter (· ∉ seen) := by
  induction ms generalizing seen with
  | nil => rfl
  | cons m ms ih =>
    simp only [newOnes, firsts]
    split
    next h =>
      rw [ih, List.filter_cons, if_neg (by simpa using h), List.filter_filter]
      apply List.filter_congr
      intro x _
      by_cases hx : x = m
      · subst hx; simp [h]
      · simp [hx]
    next h =>
      rw [ih, List.filter_cons, if_pos (by simpa using h), List.filter_filter]
      congr 1
      apply List.filter_congr
      intro x _
      simp [Bool.and_comm]

theorem traceRun_thread (t : Nat) (rs : List Report) (s : TraceState) :
    linesOf t (traceRun s rs).stdout =
      linesOf t s.stdout ++ newOnes (s.guard t) (printable t rs) := by
  induction rs generalizing s with
  | nil => simp [traceRun, printable, newOnes]
  | cons r rs ih =>
    have hstep : traceRun s (r :: rs) = traceRun (debugOutputOnce s r).2 rs := rfl
    rw [hstep, ih]
    have hp : printable t (r :: rs) =
        (if r.thread = t ∧ r.printOk then [r.msg] else []) ++ printable t rs := by
      simp only [printable, List.filter_cons]
      split <;> simp_all
    rw [hp]
    by_cases hg : (s.guard r.thread).contains r.msg = true
    · rw [show debugOutputOnce s r = (true, s) by simp only [debugOutputOnce, if_pos hg]]
      by_cases ht : r.thread = t ∧ r.printOk
      · rw [if_pos ht]
        obtain ⟨rfl, -⟩ := ht
        simp only [List.cons_append, List.nil_append, newOnes]
        rw [if_pos (by simpa using hg)]
      · rw [if_neg ht, List.nil_append]
    · have hf : ∀ x : TraceState, (debugAppendLog x r).guard = x.guard ∧
          (debugAppendLog x r).stdout = x.stdout := by
        intro x
        unfold debugAppendLog
        split <;> simp
      simp only [debugOutputOnce, if_neg hg]
      by_cases hk : r.printOk = true
      · simp only [if_pos hk, (hf s).1, (hf s).2]
        by_cases ht : r.thread = t
        · subst ht
          simp only [linesOf, List.filter_append, List.map_append, true_and, hk, if_true,
            List.cons_append, List.nil_append, newOnes]
          rw [if_neg (by simpa using hg)]
          simp
        · rw [if_neg (Ne.symm ht), if_neg (fun h => ht h.1), List.nil_append]
          simp [linesOf, List.filter_append, ht]
      · rw [if_neg hk, if_neg (fun h => hk h.2), List.nil_append, (hf s).1, (hf s).2]

/-- **C94.** Standard output contains for every thread its distinct messages, each
once, in the order of their first report which could be printed; whatever the
other threads do. -/
theorem C94_once (rs : List Report) (t : Nat) :
    linesOf t (traceRun traceStart rs).stdout = firsts (printable t rs) := by
  rw [traceRun_thread, newOnes_filter]
  simp [traceStart, linesOf]

theorem firsts_spec (ms : List String) : (firsts ms).Nodup ∧ ∀ m, m ∈ firsts ms ↔ m ∈ ms := by
  induction ms with
  | nil => simp [firsts]
  | cons m ms ih =>
    refine ⟨?_, fun x => ?_⟩
    · rw [firsts, List.nodup_cons]
      refine ⟨by simp, ih.1.filter _⟩
    · simp only [firsts, List.mem_cons, List.mem_filter, ih.2]
      by_cases h : x = m <;> simp [h]

/-- **C94**: so no thread prints a message twice, and every message which could
be printed is. -/
theorem C94_nodup (rs : List Report) (t : Nat) :
    (linesOf t (traceRun traceStart rs).stdout).Nodup ∧
    ∀ m, m ∈ linesOf t (traceRun traceStart rs).stdout ↔
      ∃ r ∈ rs, r.thread = t ∧ r.msg = m ∧ r.printOk = true := by
  rw [C94_once]
  refine ⟨(firsts_spec _).1, fun m => ?_⟩
  rw [(firsts_spec _).2]
  simp only [printable, List.mem_map, List.mem_filter, decide_eq_true_eq]
  constructor
  · rintro ⟨r, ⟨h1, h2, h3⟩, h4⟩
    exact ⟨r, h1, h2, h4, h3⟩
  · rintro ⟨r, h1, h2, h4, h3⟩
    exact ⟨r, ⟨h1, h2, h3⟩, h4⟩

/-- **C94**: a report returns normally if the message was printed before or can
be printed now; otherwise it panics and a later report tries again. -/
theorem C94_panics (s : TraceState) (r : Report) :
    ((debugOutputOnce s r).1 = false ↔ r.msg ∉ s.guard r.thread ∧ r.printOk = false) ∧
    ((debugOutputOnce s r).1 = false → (debugOutputOnce s r).2.guard = s.guard ∧
      (debugOutputOnce s r).2.stdout = s.stdout) := by
  by_cases hg : (s.guard r.thread).contains r.msg = true
  · have : r.msg ∈ s.guard r.thread := by simpa using hg
    simp [debugOutputOnce, this]
  · have : r.msg ∉ s.guard r.thread := by simpa using hg
    cases hk : r.printOk
    · simp only [debugOutputOnce, if_neg hg, hk, Bool.false_eq_true, if_false]
      refine ⟨by simp [this], fun _ => ?_⟩
      unfold debugAppendLog
      split <;> simp
    · simp [debugOutputOnce, this, hk]

/-- **C94**, the log file: if it can be written whenever standard output can, and
standard output always can, it has the same lines. -/
theorem C94_file (rs : List Report) (h : ∀ r ∈ rs, r.printOk = true ∧ r.fileOk = true) :
    (traceRun traceStart rs).file = (traceRun traceStart rs).stdout := by
  have key : ∀ (rs : List Report) (s : TraceState), s.file = s.stdout →
      (∀ r ∈ rs, r.printOk = true ∧ r.fileOk = true) → (traceRun s rs).file = (traceRun s rs).stdout := by
    intro rs
    induction rs with
    | nil => intro s hs _; exact hs
    | cons r rs ih =>
      intro s hs h
      refine ih (debugOutputOnce s r).2 ?_ fun r' h' => h r' (by simp [h'])
      obtain ⟨h1, h2⟩ := h r (by simp)
      unfold debugOutputOnce
      split
      · exact hs
      · simp [debugAppendLog, h2, hs]
  exact key rs traceStart rfl h

/-- The reports which are not preceded by a printed report of the same message by the same thread. -/
def fresh (before : List Report) : List Report → List Report
  | [] => []
  | r :: rs =>
    if ∃ q ∈ before, q.thread = r.thread ∧ q.msg = r.msg ∧ q.printOk = true then fresh (before ++ [r]) rs
    else r :: fresh (before ++ [r]) rs

/-- **C94**, both outputs with their interleaving: every report without a printed predecessor goes
to the log file if that can be written, and to standard output if that can be written. -/
theorem C94_outputs (rs : List Report) :
    (traceRun traceStart rs).file =
      ((fresh [] rs).filter (·.fileOk)).map (fun r => (r.thread, r.msg)) ∧
    (traceRun traceStart rs).stdout =
      ((fresh [] rs).filter (·.printOk)).map (fun r => (r.thread, r.msg)) := by
  have key : ∀ (rs before : List Report) (s : TraceState),
      (∀ t m, m ∈ s.guard t ↔ ∃ q ∈ before, q.thread = t ∧ q.msg = m ∧ q.printOk = true) →
      (traceRun s rs).file =
        s.file ++ ((fresh before rs).filter (·.fileOk)).map (fun r => (r.thread, r.msg)) ∧
      (traceRun s rs).stdout =
        s.stdout ++ ((fresh before rs).filter (·.printOk)).map (fun r => (r.thread, r.msg)) := by
    intro rs
    induction rs with
    | nil => intro b s _; simp [traceRun, fresh]
    | cons r rs ih =>
      intro b s hs
      have step : traceRun s (r :: rs) = traceRun (debugOutputOnce s r).2 rs := rfl
      rw [step]
      by_cases hg : r.msg ∈ s.guard r.thread
      · have hq := (hs _ _).1 hg
        have e : (debugOutputOnce s r).2 = s := by simp [debugOutputOnce, hg]
        rw [e, fresh, if_pos hq]
        refine ih (b ++ [r]) s fun t m => ?_
        rw [hs]
        constructor
        · rintro ⟨q, h1, h2⟩; exact ⟨q, by simp [h1], h2⟩
        · rintro ⟨q, h1, h2⟩
          rcases List.mem_append.1 h1 with h | h
          · exact ⟨q, h, h2⟩
          · obtain rfl := List.mem_singleton.1 h
            obtain ⟨rfl, rfl, _⟩ := h2
            exact hq
      · have hq : ¬ ∃ q ∈ b, q.thread = r.thread ∧ q.msg = r.msg ∧ q.printOk = true :=
          fun h => hg ((hs _ _).2 h)
        rw [fresh, if_neg hq]
        have inv : ∀ t m, m ∈ (debugOutputOnce s r).2.guard t ↔
            ∃ q ∈ b ++ [r], q.thread = t ∧ q.msg = m ∧ q.printOk = true := by
          intro t m
          have hgd : ∀ s' : TraceState, (debugAppendLog s' r).guard = s'.guard := by
            intro s'; unfold debugAppendLog; split <;> rfl
          have hex : (∃ q ∈ b ++ [r], q.thread = t ∧ q.msg = m ∧ q.printOk = true) ↔
              (∃ q ∈ b, q.thread = t ∧ q.msg = m ∧ q.printOk = true) ∨
                (r.thread = t ∧ r.msg = m ∧ r.printOk = true) := by
            simp only [List.mem_append, List.mem_singleton]
            constructor
            · rintro ⟨q, h | rfl, h2⟩
              · exact Or.inl ⟨q, h, h2⟩
              · exact Or.inr h2
            · rintro (⟨q, h, h2⟩ | h)
              · exact ⟨q, Or.inl h, h2⟩
              · exact ⟨r, Or.inr rfl, h⟩
          rw [hex, ← hs]
          have hc : ¬ (s.guard r.thread).contains r.msg = true := by simpa using hg
          cases hk : r.printOk
          · simp [debugOutputOnce, hg, hk, hgd]
          · simp only [debugOutputOnce, if_neg hc, hk, if_true, hgd]
            by_cases ht : t = r.thread
            · subst ht
              simp only [if_true, List.mem_cons, true_and, and_true]
              constructor
              · rintro (h | h)
                · exact Or.inr h.symm
                · exact Or.inl h
              · rintro (h | h)
                · exact Or.inr h
                · exact Or.inl h.symm
            · simp [ht, Ne.symm ht]
        obtain ⟨h1, h2⟩ := ih (b ++ [r]) (debugOutputOnce s r).2 inv
        rw [h1, h2]
        have hc : ¬ (s.guard r.thread).contains r.msg = true := by simpa using hg
        unfold debugOutputOnce debugAppendLog
        rw [if_neg hc]
        cases hk : r.printOk <;> cases hf : r.fileOk <;> simp [hk, hf]
  simpa [traceStart] using key rs [] traceStart (by simp [traceStart])

/-- Two threads, a repeated message, and one which could not be printed at first. -/
example : let rs : List Report := [⟨0, "a", true, true⟩, ⟨1, "a", true, true⟩, ⟨0, "b", true, false⟩,
      ⟨0, "a", true, true⟩, ⟨0, "b", true, true⟩]
    (traceRun traceStart rs).stdout = [(0, "a"), (1, "a"), (0, "b")] ∧
    (traceRun traceStart rs).file = [(0, "a"), (1, "a"), (0, "b"), (0, "b")] := by decide +kernel

end Faster
