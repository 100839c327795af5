import Verif.Props.Accumulators
import Verif.Props.FloatBound
/-
C174: how far the sum of floats in an unrolled loop with several accumulators can be from the exact sum.
-/
namespace Faster
open Res SIMDSized SIMDIterable SIMDIterator

/-! ### What the accumulators are -/

section
variable {T α A : Type} {w : Nat} [SIMDSized T] [SIMDIterator T α w] {c : Cfg}

/-- For every operation: the accumulators after the loop are those before it, combined with one chunk after another,
and the number of chunks is as small as it can be. -/
theorem accLoop_chunks {op : A → A → A} {g : Vector α w → A} {it' : T} (hend : next c it' = ok (none, it'))
    (amt : Nat) (ha0 : 0 < amt) (ha : amt ≤ 8) : ∀ (fuel : Nat) (it : T) (vs : List (Vector α w))
    (s : Vector (Vector α w) 8) (accs : List A), Runs c it vs (ok it') → vs.length < fuel →
    ∃ (s' : _) (chunks : List (List (Vector α w))),
      accLoop c op g fuel ⟨it, amt, s⟩ accs = ok (⟨it', amt, s'⟩, chunks.foldl (zipAcc op g) accs) ∧
      chunks.flatten = vs ∧ (∀ ch ∈ chunks, ch.length ≤ amt) ∧ chunks.length = (vs.length + amt - 1) / amt := by
  intro fuel
  induction fuel with
  | zero => intro it vs s accs h hf; omega
  | succ fuel ih =>
    intro it vs s accs h hf
    by_cases hv : vs = []
    · subst hv
      refine ⟨s, [], ?_, rfl, by simp, ?_⟩
      · obtain ⟨k, rfl⟩ : ∃ k, amt = k + 1 := ⟨amt - 1, by omega⟩
        generalize hr : (ok it' : Res T) = r at h
        cases h with
        | @done _ it2 h =>
          cases hr
          simp [accLoop, Unrolled.next, Unrolled.nextLoop, h]
        | @fail _ r h hf' =>
          cases r with
          | ok a => exact absurd rfl (hf' a)
          | _ => simp [castFail] at hr
      · simp only [List.length_nil]
        exact (Nat.div_eq_of_lt (by omega)).symm
    · obtain ⟨it1, s1, e1, e2, e3⟩ := unrolled_next hend h amt s ha0 ha
      have hlen : 0 < vs.length := List.length_pos_iff.mpr hv
      obtain ⟨s', chunks, e4, e5, e6, e7⟩ := ih it1 (vs.drop amt) s1 (zipAcc op g accs (vs.take amt)) e2
        (by simp; omega)
      refine ⟨s', vs.take amt :: chunks, ?_, ?_, ?_, ?_⟩
      · simp only [accLoop, e1, ok_bind, if_neg hv, ScratchRef.read, e3, e4, List.foldl_cons]
      · rw [List.flatten_cons, e5, List.take_append_drop]
      · intro ch hch
        rcases List.mem_cons.1 hch with rfl | hch
        · rw [List.length_take]; omega
        · exact e6 ch hch
      · rw [List.length_cons, e7, List.length_drop]
        rcases Nat.lt_or_ge amt vs.length with h1 | h1
        · rw [show vs.length + amt - 1 = (vs.length - amt + amt - 1) + amt by omega, Nat.add_div_right _ ha0]
        · rw [Nat.sub_eq_zero_of_le h1, Nat.zero_add, Nat.div_eq_of_lt (show amt - 1 < amt by omega)]
          exact (Nat.div_eq_of_lt_le (by omega) (by omega)).symm

end

/-! ### Rounding errors -/

variable {n w : Nat}

/-- The float `x` is the sum `S` up to `D` roundings, with `T` the sum of the magnitudes: if it is finite it is near, and
it is finite if the magnitudes are small enough. -/
def Rounded (D : Nat) (x : BitVec n) (S T : ℝ) : Prop :=
  |S| ≤ T ∧ ((ieee x).Finite → Near D x S T) ∧ ((1 + fEps n) ^ D * T < fLimit n → (ieee x).Finite)

theorem Rounded.exact {x : BitVec n} {a : ℚ} (h : ieee x = .fin a) : Rounded 0 x a |(a : ℝ)| :=
  ⟨le_refl _, fun _ => Near.exact h, fun _ => by rw [h]; trivial⟩

theorem Rounded.mono {D E : Nat} {x : BitVec n} {S T : ℝ} (h : Rounded D x S T) (hd : D ≤ E) : Rounded E x S T := by
  obtain ⟨h1, h2, h3⟩ := h
  refine ⟨h1, fun hf => (h2 hf).mono hd, fun hb => h3 (lt_of_le_of_lt ?_ hb)⟩
  exact mul_le_mul_of_nonneg_right (pow_le_pow_right₀ (by linarith [fEps_pos (n := n)]) hd)
    (le_trans (abs_nonneg _) h1)

theorem Rounded.add (hn : n = 32 ∨ n = 64) {D : Nat} {x y : BitVec n} {S T S' T' : ℝ} (hx : Rounded D x S T)
    (hy : Rounded D y S' T') : Rounded (D + 1) (fadd x y) (S + S') (T + T') := by
  obtain ⟨h1, h2, h3⟩ := hx
  obtain ⟨h4, h5, h6⟩ := hy
  have hT : 0 ≤ T := le_trans (abs_nonneg _) h1
  have hT' : 0 ≤ T' := le_trans (abs_nonneg _) h4
  refine ⟨(abs_add_le _ _).trans (add_le_add h1 h4), fun hf => ?_, fun hb => ?_⟩
  · have hfx : (ieee x).Finite := by by_contra h; exact fadd_absorbs hn (.inl h) hf
    have hfy : (ieee y).Finite := by by_contra h; exact fadd_absorbs hn (.inr h) hf
    have := (h2 hfx).add hn (h5 hfy) hf
    rwa [Nat.max_self] at this
  · have hle : ∀ X, X ≤ T + T' → (1 + fEps n) ^ D * X < fLimit n := by
      intro X hX
      refine lt_of_le_of_lt ?_ hb
      have h7 : (1 + fEps n) ^ D ≤ (1 + fEps n) ^ (D + 1) :=
        pow_le_pow_right₀ (by linarith [fEps_pos (n := n)]) (Nat.le_succ D)
      have h8 := one_le_eps_pow (n := n) D
      exact (mul_le_mul_of_nonneg_left hX (by linarith)).trans (mul_le_mul_of_nonneg_right h7 (by linarith))
    refine Near.finite hn (h2 (h3 (hle _ (by linarith)))) (h5 (h6 (hle _ (by linarith)))) ?_
    rw [Nat.max_self]
    exact hle _ le_rfl

/-- The sum of the lanes of a vector in the order of a plan. -/
theorem Plan.rounded (hn : n = 32 ∨ n = 64) (v : Nat → BitVec n) (D : Nat) (S T : Nat → ℝ) (p : Plan)
    (hv : ∀ i ∈ p.lanes, Rounded D (v i) (S i) (T i)) :
    Rounded (D + p.depth) (p.eval fadd (fZero n false) v) (p.lanes.map S).sum (p.lanes.map T).sum := by
  induction p with
  | zero =>
    have := Rounded.exact (fzero_facts hn false).2
    simpa [Plan.eval, Plan.lanes] using this.mono (Nat.zero_le _)
  | lane i => simpa [Plan.eval, Plan.lanes, Plan.depth] using hv i (by simp [Plan.lanes])
  | add l r ihl ihr =>
    have h1 := (ihl fun i hi => hv i (List.mem_append_left _ hi)).mono (show _ ≤ D + max l.depth r.depth by omega)
    have h2 := (ihr fun i hi => hv i (List.mem_append_right _ hi)).mono (show _ ≤ D + max l.depth r.depth by omega)
    simpa only [Plan.lanes, List.map_append, List.sum_append, Plan.depth, Plan.eval, ← Nat.add_assoc] using h1.add hn h2

/-- Floats which together are the sum `S`, each up to `D` roundings. -/
def Together (D : Nat) : List (BitVec n) → ℝ → ℝ → Prop
  | [], S, T => S = 0 ∧ T = 0
  | x :: xs, S, T => ∃ S1 T1 S2 T2, Rounded D x S1 T1 ∧ Together D xs S2 T2 ∧ S = S1 + S2 ∧ T = T1 + T2

theorem Together.mono {D E : Nat} (hd : D ≤ E) {xs : List (BitVec n)} : ∀ {S T : ℝ}, Together D xs S T →
    Together E xs S T := by
  induction xs with
  | nil => exact fun h => h
  | cons x xs ih => exact fun ⟨S1, T1, S2, T2, h1, h2, h3⟩ => ⟨S1, T1, S2, T2, h1.mono hd, ih h2, h3⟩

theorem together_zeros (hn : n = 32 ∨ n = 64) (m : Nat) : Together 0 (List.replicate m (fZero n false)) 0 0 := by
  induction m with
  | zero => exact ⟨rfl, rfl⟩
  | succ m ih =>
    refine ⟨0, 0, 0, 0, ?_, ih, by simp, by simp⟩
    simpa using Rounded.exact (fzero_facts hn false).2

/-- One vector more in every accumulator. -/
theorem Together.zipAcc (hn : n = 32 ∨ n = 64) (g : BitVec n → BitVec n) (q : BitVec n → ℝ) {i : Nat} (hi : i < w) :
    ∀ (as vs : List (Vector (BitVec n) w)) {D : Nat} {S T : ℝ}, vs.length ≤ as.length →
    (∀ v ∈ vs, ∃ a : ℚ, ieee (g (v[i]?.getD 0)) = .fin a ∧ q (v[i]?.getD 0) = a) →
    Together D (as.map fun v => v[i]) S T →
    Together (D + 1) ((Faster.zipAcc (Vector.zipWith fadd) (Vector.map g) as vs).map fun v => v[i])
      (S + (vs.map fun v => q (v[i]?.getD 0)).sum) (T + (vs.map fun v => |q (v[i]?.getD 0)|).sum) := by
  intro as
  induction as with
  | nil =>
    intro vs D S T hl _ h
    cases vs with
    | nil => simpa [Faster.zipAcc] using h.mono (Nat.le_succ D)
    | cons v vs => simp at hl
  | cons a as ih =>
    intro vs D S T hl hq h
    cases vs with
    | nil => simpa [Faster.zipAcc] using h.mono (Nat.le_succ D)
    | cons v vs =>
      obtain ⟨S1, T1, S2, T2, h1, h2, rfl, rfl⟩ := h
      obtain ⟨b, hb1, hb2⟩ := hq v (by simp)
      have hr := h1.add hn ((Rounded.exact hb1).mono (Nat.zero_le D))
      refine ⟨S1 + b, T1 + |(b : ℝ)|, _, _, ?_,
        ih vs (by simpa using hl) (fun v hv => hq v (List.mem_cons_of_mem _ hv)) h2, ?_, ?_⟩
      · simpa [hi] using hr
      · simp only [List.map_cons, List.sum_cons, hb2]; ring
      · simp only [List.map_cons, List.sum_cons, hb2]; ring

/-- All chunks. -/
theorem Together.chunks (hn : n = 32 ∨ n = 64) (g : BitVec n → BitVec n) (q : BitVec n → ℝ) {i : Nat} (hi : i < w)
    (chunks : List (List (Vector (BitVec n) w))) : ∀ (as : List (Vector (BitVec n) w)) {D : Nat} {S T : ℝ},
    (∀ ch ∈ chunks, ch.length ≤ as.length) →
    (∀ v ∈ chunks.flatten, ∃ a : ℚ, ieee (g (v[i]?.getD 0)) = .fin a ∧ q (v[i]?.getD 0) = a) →
    Together D (as.map fun v => v[i]) S T →
    Together (D + chunks.length)
      ((chunks.foldl (Faster.zipAcc (Vector.zipWith fadd) (Vector.map g)) as).map fun v => v[i])
      (S + (chunks.flatten.map fun v => q (v[i]?.getD 0)).sum)
      (T + (chunks.flatten.map fun v => |q (v[i]?.getD 0)|).sum) := by
  induction chunks with
  | nil => intro as D S T _ _ h; simpa using h
  | cons ch chunks ih =>
    intro as D S T hl hq h
    have h1 := h.zipAcc hn g q hi as ch (hl ch (by simp)) fun v hv => hq v (by simp [hv])
    have h2 := ih _ (by intro c' hc; rw [zipAcc_length]; exact hl c' (by simp [hc]))
      (fun v hv => hq v (by rw [List.flatten_cons]; exact List.mem_append_right _ hv)) h1
    simpa only [List.foldl_cons, List.flatten_cons, List.map_append, List.sum_append, List.length_cons, add_assoc,
      Nat.add_comm 1] using h2

/-- The accumulators are added one after another. -/
theorem Together.fold (hn : n = 32 ∨ n = 64) {i : Nat} (hi : i < w) (as : List (Vector (BitVec n) w)) :
    ∀ (x : Vector (BitVec n) w) {D : Nat} {S T S0 T0 : ℝ}, Together D (as.map fun v => v[i]) S T →
    Rounded D x[i] S0 T0 →
    Rounded (D + as.length) (as.foldl (Vector.zipWith fadd) x)[i] (S0 + S) (T0 + T) := by
  induction as with
  | nil =>
    rintro x D S T S0 T0 ⟨rfl, rfl⟩ h
    simpa using h
  | cons a as ih =>
    rintro x D S T S0 T0 ⟨S1, T1, S2, T2, h1, h2, rfl, rfl⟩ h
    have h3 := ih (Vector.zipWith fadd x a) (h2.mono (Nat.le_succ D)) (by
      rw [Vector.getElem_zipWith]; exact h.add hn h1)
    rw [List.foldl_cons, List.length_cons, show D + (as.length + 1) = D + 1 + as.length by omega, ← add_assoc,
      ← add_assoc]
    exact h3

/-! ### C174 -/

/-- **C174**: an unrolled loop with `m` accumulators, a lane-wise function `g` and vector additions, then `sum` in any
order. Every element goes through as many roundings as there are chunks, one for every accumulator, one for the leftover
elements, and those of `sum`. -/
theorem C174_accs (hn : n = 32 ∨ n = 64) (g : BitVec n → BitVec n)
    {sum : (BitVec n → BitVec n → BitVec n) → Vector (BitVec n) w → Res (BitVec n)} {p : Plan}
    (hp : Follows sum (fZero n false) p) (hl : p.lanes = List.range w) (c : Cfg) (fuel amt m : Nat)
    (data : List (BitVec n)) (e : BitVec n) (hw : 0 < w) (hlen : data.length + w < c.usize) (ha0 : 0 < amt)
    (ha : amt ≤ 8) (hm : amt ≤ m) (hfuel : data.length / w < fuel) (hq : ∀ x ∈ data, (ieee (g x)).Finite)
    (hpad : data.length % w = 0 ∨ ieee (g e) = .fin 0) :
    let D := (data.length / w + amt - 1) / amt + m + (if data.length % w = 0 then 0 else 1) + p.depth
    let total := (data.map fun x => (ieee (g x)).real).sum
    let size := (data.map fun x => |(ieee (g x)).real|).sum
    ∃ r, (do
      let (_, acc) ← unrolledAccs c fuel amt m (simdIter (w := w) data (Packed.splat e)) (Vector.zipWith fadd)
        (Packed.splat (fZero n false)) (Vector.map g)
      sum fadd acc) = ok r ∧
      (∀ s, ieee r = .fin s → |(s - total : ℝ)| ≤ ((1 + fEps n) ^ D - 1) * size) ∧
      ((1 + fEps n) ^ D * size < fLimit n → ∃ s, ieee r = .fin s) := by
  intro D total size
  have hrep := represents_slice (w := w) c data
  have hdm := Nat.div_add_mod data.length w
  have hml := Nat.mod_lt data.length hw
  rw [Nat.mul_comm] at hdm
  have hruns := simdIter_runs hrep (Packed.splat e) hw hlen 0 (by omega)
  simp only [List.drop_zero, Nat.zero_add, Nat.sub_zero] at hruns
  have hnone := simdIter_next_none hrep (p := data.length / w * w) (d := Packed.splat e) (by omega) (by omega)
  obtain ⟨s', chunks, e1, e2, e3, e4⟩ := accLoop_chunks (op := Vector.zipWith fadd) (g := Vector.map g) hnone amt ha0 ha
    fuel _ _ (Vector.replicate 8 Packed.default) (List.replicate m (Packed.splat (fZero n false))) hruns
    (by rw [fullWindows_length]; exact hfuel)
  have hu : (unroll (⟨0, ⟨data⟩, Packed.splat e⟩ : SIMDIter (Slice (BitVec n) w) (BitVec n) w) amt :
      Res (Unrolled _ (BitVec n) w)) = ok ⟨⟨0, ⟨data⟩, Packed.splat e⟩, amt, Vector.replicate 8 Packed.default⟩ := by
    simp [unroll, ha]
  set accs := chunks.foldl (zipAcc (Vector.zipWith fadd) (Vector.map g))
    (List.replicate m (Packed.splat (fZero n false))) with haccs
  have hacclen : accs.length = m := by
    have : ∀ (chs : List (List (Vector (BitVec n) w))) (as : List (Vector (BitVec n) w)),
        (chs.foldl (zipAcc (Vector.zipWith fadd) (Vector.map g)) as).length = as.length := by
      intro chs
      induction chs with
      | nil => intro as; rfl
      | cons ch chs ih => intro as; rw [List.foldl_cons, ih, zipAcc_length]
    rw [haccs, this, List.length_replicate]
  set tail : List (Vector (BitVec n) w) :=
    if data.length % w = 0 then [] else [padFront (Packed.splat e) (leftover w data)] with htail
  have hcalls : calls w (Packed.splat e) data = fullWindows w data ++ tail := rfl
  have hloop : ∃ it, unrolledAccs c fuel amt m (simdIter (w := w) data (Packed.splat e)) (Vector.zipWith fadd)
      (Packed.splat (fZero n false)) (Vector.map g) = ok (it, (tail.map (Vector.map g)).foldl (Vector.zipWith fadd)
        (accs.foldl (Vector.zipWith fadd) (Packed.splat (fZero n false)))) := by
    unfold unrolledAccs simdIter
    rw [hu]
    simp only [ok_bind, e1]
    rw [simdIter_end hrep (by omega) (by
      intro h
      by_cases h0 : data.length / w = 0
      · exact .inl (by rw [h0, Nat.zero_mul])
      · refine .inr ?_
        have := Nat.le_mul_of_pos_left w (Nat.pos_of_ne_zero h0)
        omega) hlen]
    by_cases h0 : data.length % w = 0
    · rw [if_neg (by omega), htail, if_pos h0]
      exact ⟨_, rfl⟩
    · rw [if_pos (by omega), htail, if_neg h0]
      exact ⟨_, rfl⟩
  obtain ⟨it, hloop⟩ := hloop
  rw [hloop, ok_bind]
  dsimp only
  set acc := (tail.map (Vector.map g)).foldl (Vector.zipWith fadd)
    (accs.foldl (Vector.zipWith fadd) (Packed.splat (fZero n false))) with hacc
  have hfin : ∀ v ∈ calls w (Packed.splat e) data, ∀ i, i < w →
      ∃ a : ℚ, ieee (g (v[i]?.getD 0)) = .fin a ∧ (ieee (g (v[i]?.getD 0))).real = a := by
    intro v hv i hi
    have hx : v[i] ∈ lanes (calls w (Packed.splat e) data) :=
      List.mem_flatMap.2 ⟨v, hv, by simp⟩
    have : (ieee (g v[i])).Finite := by
      rcases mem_pad_zero e hw data _ hx with ⟨h1, h2⟩ | h
      · rw [h2, hpad.resolve_left h1]; trivial
      · exact hq _ h
    rw [Vector.getElem?_eq_getElem hi, Option.getD_some]
    cases h : ieee (g v[i]) with
    | nan => rw [h] at this; exact this.elim
    | inf t => rw [h] at this; exact this.elim
    | fin a => exact ⟨a, rfl, rfl⟩
  have hlane : ∀ i ∈ p.lanes, Rounded ((data.length / w + amt - 1) / amt + m + tail.length)
      (acc[i]?.getD (fZero n false))
      ((calls w (Packed.splat e) data).map fun v => (ieee (g (v[i]?.getD 0))).real).sum
      ((calls w (Packed.splat e) data).map fun v => |(ieee (g (v[i]?.getD 0))).real|).sum := by
    intro i hi
    rw [hl, List.mem_range] at hi
    have hz : Rounded 0 (fZero n false) 0 0 := by simpa using Rounded.exact (fzero_facts hn false).2
    have h0 : Together 0 ((List.replicate m (Packed.splat (fZero n false) : Vector (BitVec n) w)).map fun v => v[i]) 0 0 := by
      simpa [Packed.splat] using together_zeros hn m
    have h1 := h0.chunks hn g (fun x => (ieee (g x)).real) hi chunks _ (by
        intro ch hch; rw [List.length_replicate]; exact (e3 ch hch).trans hm) (by
        intro v hv
        rw [e2] at hv
        exact hfin v (by rw [hcalls]; exact List.mem_append_left _ hv) i hi)
    rw [← haccs, e4, e2, fullWindows_length, zero_add, zero_add, zero_add] at h1
    have h2 := h1.fold hn hi accs (Packed.splat (fZero n false)) (S0 := 0) (T0 := 0) (by
      simpa [Packed.splat] using hz.mono (Nat.zero_le _))
    rw [hacclen, zero_add, zero_add] at h2
    rw [Vector.getElem?_eq_getElem hi, Option.getD_some, hacc, hcalls]
    by_cases h3 : data.length % w = 0
    · rw [htail, if_pos h3]
      simpa using h2
    · obtain ⟨a, ha1, ha2⟩ := hfin (padFront (Packed.splat e) (leftover w data))
        (by rw [hcalls, htail, if_neg h3]; simp) i hi
      have h4 := h2.add hn ((Rounded.exact ha1).mono (Nat.zero_le _))
      rw [← ha2, Vector.getElem?_eq_getElem hi, Option.getD_some] at h4
      rw [htail, if_neg h3]
      simpa [hi] using h4
  have hD : D = (data.length / w + amt - 1) / amt + m + tail.length + p.depth := by
    rw [htail]
    show _ + (if data.length % w = 0 then 0 else 1) + _ = _
    split <;> rfl
  have hsum := p.rounded hn (fun i => acc[i]?.getD (fZero n false)) _ _ _ hlane
  rw [hl, sum_lanes (calls w (Packed.splat e) data) fun x => (ieee (g x)).real,
    sum_lanes (calls w (Packed.splat e) data) fun x => |(ieee (g x)).real|,
    sum_pad_zero (fun x => (ieee (g x)).real) e hw data (hpad.imp id fun h => by rw [h]; simp [FVal.real]),
    sum_pad_zero (fun x => |(ieee (g x)).real|) e hw data (hpad.imp id fun h => by rw [h]; simp [FVal.real]),
    ← hD] at hsum
  refine ⟨_, hp fadd acc, fun s hs => ?_, fun hb => ?_⟩
  · obtain ⟨-, b, h1, h2⟩ := hsum.2.1 (by rw [hs]; trivial)
    rw [hs] at h1
    cases h1
    exact h2
  · have h := hsum.2.2 hb
    cases hs : ieee (p.eval fadd (fZero n false) fun i => acc[i]?.getD (fZero n false)) with
    | nan => rw [hs] at h; exact h.elim
    | inf t => rw [hs] at h; exact h.elim
    | fin s => exact ⟨s, rfl⟩

/-- **C174** against one accumulator (C109): with chunks of at least two vectors and `2 m + 1` full vectors or more, no
more roundings than with one accumulator. -/
theorem C174_fewer {len amt m d : Nat} (hw : 0 < w) (ha : 2 ≤ amt) (hlen : 2 * m + 1 ≤ len / w) :
    (len / w + amt - 1) / amt + m + (if len % w = 0 then 0 else 1) + d ≤ (len + w - 1) / w + d := by
  have h1 : (len / w + amt - 1) / amt ≤ (len / w + 1) / 2 := by
    generalize len / w = q at *
    rw [Nat.div_le_iff_le_mul_add_pred (by omega)]
    have h2 := Nat.div_add_mod (q + 1) 2
    have h3 := Nat.mod_lt (q + 1) (show 0 < 2 by omega)
    have h4 : 2 * ((q + 1) / 2) ≤ amt * ((q + 1) / 2) := Nat.mul_le_mul_right _ ha
    omega
  have h5 : len / w + (if len % w = 0 then 0 else 1) ≤ (len + w - 1) / w := by
    rw [Nat.le_div_iff_mul_le hw, Nat.add_mul]
    have := Nat.div_add_mod len w
    rw [Nat.mul_comm] at this
    split <;> omega
  omega

/-- **C174**: how far the results with several accumulators and with one can be apart. -/
theorem C174_one (hn : n = 32 ∨ n = 64) (g : BitVec n → BitVec n)
    {sum : (BitVec n → BitVec n → BitVec n) → Vector (BitVec n) w → Res (BitVec n)} {p : Plan}
    (hp : Follows sum (fZero n false) p) (hl : p.lanes = List.range w) (c : Cfg) (fuel amt m : Nat)
    (data : List (BitVec n)) (e : BitVec n) (hw : 0 < w) (hlen : data.length + w < c.usize) (ha0 : 0 < amt)
    (ha : amt ≤ 8) (hm : amt ≤ m) (hfuel : data.length / w < fuel) (hq : ∀ x ∈ data, (ieee (g x)).Finite)
    (hpad : data.length % w = 0 ∨ ieee (g e) = .fin 0) :
    let D := (data.length / w + amt - 1) / amt + m + (if data.length % w = 0 then 0 else 1) + p.depth
    let D' := (data.length + w - 1) / w + p.depth
    let size := (data.map fun x => |(ieee (g x)).real|).sum
    ∃ r r', (do
      let (_, acc) ← unrolledAccs c fuel amt m (simdIter (w := w) data (Packed.splat e)) (Vector.zipWith fadd)
        (Packed.splat (fZero n false)) (Vector.map g)
      sum fadd acc) = ok r ∧ (do
      let (_, acc, _) ← simdReduce c fuel (simdIter (w := w) data (Packed.splat e))
        (Packed.splat (fZero n false)) () (fun _ a v => ok (Vector.zipWith fadd a (v.map g), ()))
      sum fadd acc) = ok r' ∧
      ∀ s s', ieee r = .fin s → ieee r' = .fin s' →
        |(s - s' : ℝ)| ≤ ((1 + fEps n) ^ D - 1 + ((1 + fEps n) ^ D' - 1)) * size := by
  intro D D' size
  obtain ⟨r, h1, h2, -⟩ := C174_accs hn g hp hl c fuel amt m data e hw hlen ha0 ha hm hfuel hq hpad
  obtain ⟨r', h3, h4, -⟩ := C109_reduce hn g hp hl c fuel data e hw hlen hfuel hq hpad
  refine ⟨r, r', h1, h3, fun s s' hs hs' => ?_⟩
  have h5 := h2 s hs
  have h6 := h4 s' hs'
  rw [add_mul]
  refine (abs_sub_le (s : ℝ) ((data.map fun x => (ieee (g x)).real).sum) s').trans (add_le_add h5 ?_)
  rw [abs_sub_comm]
  exact h6

/-- **C174** for `f32x8::sum` (src/arch/x86/intrin/sum.rs:234-245). -/
theorem C174_f32x8 (c : Cfg) (fuel amt m : Nat) (data : List (BitVec 32)) (hlen : data.length + 8 < c.usize)
    (ha0 : 0 < amt) (ha : amt ≤ 8) (hm : amt ≤ m) (hfuel : data.length / 8 < fuel)
    (hq : ∀ x ∈ data, (ieee x).Finite) :
    let D := (data.length / 8 + amt - 1) / amt + m + (if data.length % 8 = 0 then 0 else 1) + 3
    let total := (data.map fun x => (ieee x).real).sum
    let size := (data.map fun x => |(ieee x).real|).sum
    ∃ r, (do
      let (_, acc) ← unrolledAccs c fuel amt m (simdIter (w := 8) data (Packed.splat (fZero 32 false)))
        (Vector.zipWith fadd) (Packed.splat (fZero 32 false)) (Vector.map id)
      sumF32x8 fadd acc) = ok r ∧
      (∀ s, ieee r = .fin s → |(s - total : ℝ)| ≤ ((1 + fEps 32) ^ D - 1) * size) ∧
      ((1 + fEps 32) ^ D * size < fLimit 32 → ∃ s, ieee r = .fin s) :=
  C174_accs (.inl rfl) id (C63_f32x8 _).1 (C63_f32x8 (fZero 32 false)).2 c fuel amt m data _ (by decide) hlen ha0 ha hm
    hfuel hq (.inr (fzero_facts (.inl rfl) false).2)

/-- Nine floats in vectors of two, 2^24 and then ones, which is 2^24 + 8: with one accumulator 2^24 + 4, with two of them
the exact sum. -/
example :
    let data := [0x4B800000#32, 0x3F800000, 0x3F800000, 0x3F800000, 0x3F800000, 0x3F800000, 0x3F800000, 0x3F800000,
      0x3F800000]
    let zero : Vector (BitVec 32) 2 := Packed.splat (fZero 32 false)
    let sum := fun (v : Vector (BitVec 32) 2) => sumFallbackF fadd (fZero 32 false) v
    (do
      let (_, acc, _) ← simdReduce debug64 9 (simdIter (w := 2) data zero) zero ()
        (fun _ a v => ok (Vector.zipWith fadd a (v.map id), ()))
      sum acc) = ok 0x4B800002#32 ∧
    (do
      let (_, acc) ← unrolledAccs debug64 9 2 2 (simdIter (w := 2) data zero) (Vector.zipWith fadd) zero (Vector.map id)
      sum acc) = ok 0x4B800004#32 := by decide +kernel

end Faster
