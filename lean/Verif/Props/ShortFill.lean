import Verif.Props.Pipeline
/-
C96: `scalar_fill` of a lane-wise pipeline into a buffer which is too short.
-/
namespace Faster
open Res SIMDSized SIMDIterable SIMDIterator

section
variable {c : Cfg} {I α : Type} {w : Nat} {sz : SIMDSized I} {it : SIMDIterator I α w}
  {pk : Packable α} {x : I} {l : List α}

/-- The outcome for a short buffer, up to whether the pipeline delivers a whole
vector before its rest. -/
theorem lanewise_fill_short (h : Lanewise c I α w sz it pk x l) (fuel : Nat)
    (hfuel : l.length / w < fuel) (buf : List α) (hb : buf.length < l.length) :
    ∃ n, Driver.count w l n ∧ scalarFill c fuel x buf = if n = 0 then panic else badAccess c := by
  obtain ⟨hw, -, -, hl, d, n, x', hc, he, hL, hL'⟩ := lanewise_emits h
  obtain ⟨h1, h2, h3⟩ := count_len hw hc
  obtain ⟨-, h6, h7, -⟩ := Driver.count_cases hw hc
  have hv : ((fullWindows w l).take n).length = n := by
    rw [List.length_take, fullWindows_length]; omega
  refine ⟨n, hc, ?_⟩
  rw [scalarFill_short he fuel buf (by omega) hw (fun p k e => tailFrom_some e) ?_
    (by rw [hv]; omega) (by omega)]
  · by_cases hn : n = 0
    · subst hn; simp
    · rw [if_neg hn, if_neg]
      intro e
      rw [e] at hv
      exact hn hv.symm
  · rw [hv]
    simp only [tailFrom]
    split
    · simp only [Option.map_some, Option.getD_some]; omega
    · simp only [Option.map_none, Option.getD_none]; omega

/-- **C96**, debug builds: a buffer which is too short makes `scalar_fill` panic. -/
theorem C96_short_debug_partial (h : Lanewise c I α w sz it pk x l) (hc : c.debug = true)
    (fuel : Nat) (hfuel : l.length / w < fuel) (buf : List α) (hb : buf.length < l.length) :
    scalarFill c fuel x buf = panic := by
  obtain ⟨n, -, e⟩ := lanewise_fill_short h fuel hfuel buf hb
  rw [e]
  simp [badAccess, hc]

/-- **C96**, any build: less than a vector of results panics too. Missing: release
builds with more results, where the property is false (`C96_short_release`). -/
theorem C96_short_rest_partial (h : Lanewise c I α w sz it pk x l) (hlt : l.length < w)
    (fuel : Nat) (hfuel : l.length / w < fuel) (buf : List α) (hb : buf.length < l.length) :
    scalarFill c fuel x buf = panic := by
  obtain ⟨n, hc, e⟩ := lanewise_fill_short h fuel hfuel buf hb
  have hw := (lanewise_emits h).1
  obtain ⟨h1, -, -⟩ := count_len hw hc
  rw [Nat.div_eq_of_lt hlt] at h1
  rw [e, if_pos (by omega)]

/-- **C96 is false**: with more than a vector of results, a release build writes
outside of any buffer which is too short. -/
theorem C96_short_release (h : Lanewise c I α w sz it pk x l) (hc : c.debug = false)
    (hlt : w < l.length) (fuel : Nat) (hfuel : l.length / w < fuel) (buf : List α)
    (hb : buf.length < l.length) : scalarFill c fuel x buf = ub := by
  obtain ⟨n, hn, e⟩ := lanewise_fill_short h fuel hfuel buf hb
  have hw := (lanewise_emits h).1
  obtain ⟨-, h6, h7, -⟩ := Driver.count_cases hw hn
  rw [e, if_neg]
  · simp [badAccess, hc]
  · intro h0
    rw [h0] at h6 h7
    omega

/-- **C96**, exactly: a buffer which is too short makes `scalar_fill` panic if the first `next` of
the pipeline returns `None`, and is overrun (a panic in debug builds) otherwise. -/
theorem C96_exact (h : Lanewise c I α w sz it pk x l) (fuel : Nat) (hfuel : l.length / w < fuel)
    (buf : List α) (hb : buf.length < l.length) :
    ((∃ x', next c x = ok (none, x')) ∧ scalarFill c fuel x buf = panic) ∨
    ((∃ v x', next c x = ok (some v, x')) ∧ scalarFill c fuel x buf = badAccess c) := by
  obtain ⟨hw, -, -, hl, d, n, x', hc, he, hL, hL'⟩ := lanewise_emits h
  obtain ⟨h1, h2, h3⟩ := count_len hw hc
  obtain ⟨-, h6, h7, -⟩ := Driver.count_cases hw hc
  have hv : ((fullWindows w l).take n).length = n := by
    rw [List.length_take, fullWindows_length]; omega
  have key := scalarFill_short he fuel buf (by omega) hw (fun p k e => tailFrom_some e) (by
    rw [hv]
    simp only [tailFrom]
    split
    · simp only [Option.map_some, Option.getD_some]; omega
    · simp only [Option.map_none, Option.getD_none]; omega) (by rw [hv]; omega) (by omega)
  obtain ⟨r, hr, e⟩ := he
  revert hr e key
  generalize (fullWindows w l).take n = vs
  intro key hr e
  cases hr with
  | done hn => exact .inl ⟨⟨_, hn⟩, by rw [key, if_pos rfl]⟩
  | @fail _ r' hn hf => cases r' with
    | ok y => exact absurd rfl (hf y)
    | _ => cases e
  | step hn _ => exact .inr ⟨⟨_, _, hn⟩, by rw [key, if_neg (by simp)]⟩

/-- **C96**: whether a fill succeeds is decided by the lengths alone. -/
theorem C96_fill_iff (h : Lanewise c I α w sz it pk x l) (fuel : Nat) (hfuel : l.length / w < fuel)
    (buf : List α) :
    (∃ x' out, scalarFill c fuel x buf = ok (x', out)) ↔ l.length ≤ buf.length := by
  constructor
  · rintro ⟨x', out, e⟩
    apply Nat.le_of_not_lt
    intro hb
    obtain ⟨n, -, e'⟩ := lanewise_fill_short h fuel hfuel buf hb
    rw [e'] at e
    unfold badAccess at e
    split at e
    · cases e
    · split at e <;> cases e
  · intro hb
    obtain ⟨x', e⟩ := C92_fill h fuel hfuel buf hb
    exact ⟨x', _, e⟩

end

/-- Five sums of zipped slices into a buffer of three: a release build writes out
of bounds, a debug build panics. -/
theorem C96_false : ∃ z z' : Zip (SIMDIter (Slice (BitVec 8) 2) (BitVec 8) 2)
      (SIMDIter (Slice (BitVec 8) 2) (BitVec 8) 2 × Unit),
    let f : FnMut Unit (Vector (BitVec 8) 2 × Vector (BitVec 8) 2 × Unit) (Vector (BitVec 8) 2) :=
      pureFn fun v => Vector.zipWith (· + ·) v.1 v.2.1
    let a := simdIter [1#8, 2, 3, 4, 5] #v[0, 0]
    zip release64 a (a, ()) = ok z ∧ scalarFill release64 9 (zsimdMap z () f) [0, 0, 0] = ub ∧
    zip debug64 a (a, ()) = ok z' ∧ scalarFill debug64 9 (zsimdMap z' () f) [0, 0, 0] = panic := by
  let a := simdIter [1#8, 2, 3, 4, 5] #v[0, 0]
  refine ⟨⟨a, (a, ())⟩, ⟨a, (a, ())⟩, by decide +kernel, ?_, by decide +kernel, ?_⟩
  · have ha : Source release64 _ (BitVec 8) 2 _ _ _ a [1, 2, 3, 4, 5] :=
      .slice [1#8, 2, 3, 4, 5] #v[0, 0] (by decide) (by decide)
    exact C96_short_release (.zipMap () _ (fun t => t.1 + t.2.1) ha (.cons ha rfl .nil)
      (by decide +kernel) (by intro st v; simp only [pureFn]; congr 2; ext i hi; simp) rfl (by decide)
      (by decide)) rfl (by decide) 9 (by decide) _ (by decide)
  · have ha : Source debug64 _ (BitVec 8) 2 _ _ _ a [1, 2, 3, 4, 5] :=
      .slice [1#8, 2, 3, 4, 5] #v[0, 0] (by decide) (by decide)
    exact C96_short_debug_partial (.zipMap () _ (fun t => t.1 + t.2.1) ha (.cons ha rfl .nil)
      (by decide +kernel) (by intro st v; simp only [pureFn]; congr 2; ext i hi; simp) rfl (by decide)
      (by decide)) rfl 9 (by decide) _ (by decide)

end Faster
