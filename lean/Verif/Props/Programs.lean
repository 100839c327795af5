import Verif.Programs
import Verif.Props.EndToEnd
import Verif.Props.Views
import Verif.Props.Shuffle
/-
C85, C86: loops of the crate's benches, for every input.
-/
namespace Faster
open Res SIMDSized SIMDIterable SIMDIterator

/-! ### C85 -/

section
variable {T α β : Type} {w w' : Nat} [SIMDSized T] [SIMDIterator T α w]

theorem store_cases (v : Vector β w') (out : List β) (o : Nat) :
    (o + w' ≤ out.length ∧ Packed.store v out o = ok (splice out o v.toList)) ∨
      (out.length < o + w' ∧ Packed.store v out o = panic) := by
  by_cases h : o + w' ≤ out.length
  · exact .inl ⟨h, store_ok h⟩
  · refine .inr ⟨by omega, ?_⟩
    by_cases ho : o ≤ out.length
    · simp only [Packed.store]
      rw [sliceFrom_ok ho]
      simp only [ok_bind, List.length_drop]
      simp [Faster.assert, show ¬ w' ≤ out.length - o by omega]
    · simp [Packed.store, sliceFrom, ho]

theorem lanes_length_map (F : Vector α w → Vector β w') (vs : List (Vector α w)) :
    (lanes (vs.map F)).length = vs.length * w' := by simp [lanes_length]

/-- The loop over an iterator which yields `vs`, from counter `i` on. -/
theorem forStore_runs {c : Cfg} (F : Vector α w → Vector β w') {it it' : T}
    {vs : List (Vector α w)} (h : Runs c it vs (ok it')) (hw' : 0 < w') :
    ∀ (fuel i : Nat) (out : List β), vs.length < fuel → i * w' ≤ out.length →
      out.length + 1 < c.usize →
      forStore c F fuel it i out = if (i + vs.length) * w' ≤ out.length
        then ok (splice out (i * w') (lanes (vs.map F))) else panic := by
  generalize hr : (ok it' : Res T) = r at h
  induction h with
  | @done it it2 h =>
    intro fuel i out hf hi hu
    obtain ⟨f, rfl⟩ : ∃ f, fuel = f + 1 := ⟨fuel - 1, by omega⟩
    simp [forStore, h, hi, splice_nil]
  | @fail it r h hne =>
    intro fuel i out hf hi hu
    cases r with
    | ok a => exact absurd rfl (hne a)
    | _ => simp [castFail] at hr
  | @step it it1 v vs r h1 h2 ih =>
    intro fuel i out hf hi hu
    obtain ⟨f, rfl⟩ : ∃ f, fuel = f + 1 := ⟨fuel - 1, by omega⟩
    have hiw : i ≤ i * w' := Nat.le_mul_of_pos_right i hw'
    simp only [forStore, h1, ok_bind]
    rw [uadd_ok (by omega)]
    simp only [ok_bind]
    rw [umul_ok (by omega)]
    simp only [ok_bind]
    have e1 : (i + (v :: vs).length) * w' = i * w' + w' + vs.length * w' := by
      simp only [List.length_cons, Nat.add_mul, Nat.one_mul]; omega
    have e2 : (i + 1 + vs.length) * w' = i * w' + w' + vs.length * w' := by
      simp only [Nat.add_mul, Nat.one_mul]
    rcases store_cases (F v) out (i * w') with ⟨hs, e⟩ | ⟨hs, e⟩
    · have hl := splice_length out (i * w') (F v).toList (by simpa using hs)
      rw [e]
      simp only [ok_bind]
      rw [ih hr f (i + 1) _ (by simp at hf; omega) (by rw [Nat.succ_mul, hl]; exact hs)
        (by rw [hl]; exact hu), hl, e1, e2]
      split
      · next hfit =>
        congr 1
        have := splice_splice out (i * w') (F v).toList (lanes (vs.map F))
          (by rw [lanes_length_map]; simp; omega)
        rw [Vector.length_toList] at this
        rw [Nat.succ_mul, this, List.map_cons, lanes_cons]
      · rfl
    · rw [e, e1, if_neg (by omega)]
      rfl

/-- **C85**, slices: the loop stores the results for all complete vectors, in
order, from the start of the buffer; the elements which do not fill a vector are
never looked at and the rest of the buffer is unchanged. A buffer which is too
short makes it panic. -/
theorem C85_for_store (c : Cfg) (fuel : Nat) (data : List α) (d : Vector α w)
    (F : Vector α w → Vector β w') (out : List β) (hw : 0 < w) (hw' : 0 < w')
    (hlen : data.length + w < c.usize) (hout : out.length + 1 < c.usize)
    (hfuel : data.length / w < fuel) :
    forStore c F fuel (simdIter data d) 0 out =
      if data.length / w * w' ≤ out.length
      then ok (lanes ((fullWindows w data).map F) ++ out.drop (data.length / w * w'))
      else panic := by
  have h := simdIter_runs (represents_slice (w := w) c data) d hw hlen 0 (by omega)
  simp only [List.drop_zero] at h
  rw [simdIter, forStore_runs F h hw' fuel 0 out (by rw [fullWindows_length]; exact hfuel) (by simp)
    hout, fullWindows_length, Nat.zero_add]
  split
  · simp [splice, lanes_length_map, fullWindows_length]
  · rfl

/-- **C85**, a lane-wise function: the scalar loop over the complete vectors. -/
theorem C85_for_store_lanewise (c : Cfg) (fuel : Nat) (data : List α) (d : Vector α w)
    (g : α → β) (out : List β) (hw : 0 < w)
    (hlen : data.length + w < c.usize) (hout : out.length + 1 < c.usize)
    (hfuel : data.length / w < fuel) (hfit : data.length / w * w ≤ out.length) :
    forStore c (Vector.map g) fuel (simdIter data d) 0 out =
      ok ((data.take (data.length / w * w)).map g ++ out.drop (data.length / w * w)) := by
  rw [C85_for_store c fuel data d _ out hw hw hlen hout hfuel, if_pos hfit, lanes_map]
  have key := lanes_fullWindows hw data
  have hl : (lanes (fullWindows w data)).length = data.length / w * w := by
    rw [lanes_length, fullWindows_length]
  have this := congrArg (List.take (data.length / w * w)) key
  rw [List.take_append_of_le_length (Nat.le_of_eq hl.symm),
    List.take_of_length_le (Nat.le_of_eq hl)] at this
  rw [← this]

/-! Unrolled loops. -/

/-- One chunk with consecutive offsets: all vectors are stored next to each other. -/
theorem storeChunk_ok (F : Vector α w → Vector β w') (chunk : List (Vector α w))
    (pos : Nat → Res Nat) (b : Nat) (hpos : ∀ j, j < chunk.length → pos j = ok ((b + j) * w')) :
    ∀ (k a : Nat) (out : List β), a + k = chunk.length → (b + chunk.length) * w' ≤ out.length →
      storeChunk F chunk pos (List.range' a k) out =
        ok (splice out ((b + a) * w') (lanes ((chunk.drop a).map F))) := by
  intro k
  induction k with
  | zero =>
    intro a out ha hb
    rw [List.drop_of_length_le (by omega)]
    simp [storeChunk, splice_nil]
  | succ k ih =>
    intro a out ha hb
    have ha' : a < chunk.length := by omega
    have h1 : (b + a) * w' + w' ≤ (b + chunk.length) * w' := by
      rw [← Nat.succ_mul]; exact Nat.mul_le_mul_right _ (by omega)
    have h2 : (b + a) * w' + (chunk.length - a) * w' = (b + chunk.length) * w' := by
      rw [← Nat.add_mul]; congr 1; omega
    have hl := splice_length out ((b + a) * w') (F chunk[a]).toList (by simp; omega)
    rw [List.range'_succ, storeChunk]
    simp only [index, List.getElem?_eq_getElem ha', ok_bind, hpos a ha']
    rw [store_ok (by omega)]
    simp only [ok_bind]
    rw [ih (a + 1) _ (by omega) (by rw [hl]; exact hb)]
    congr 1
    rw [List.drop_eq_getElem_cons ha', List.map_cons, lanes_cons]
    have := splice_splice out ((b + a) * w') (F chunk[a]).toList
      (lanes ((chunk.drop (a + 1)).map F)) (by
        rw [lanes_length_map, List.length_drop, Vector.length_toList]
        have : (chunk.length - a) * w' = w' + (chunk.length - (a + 1)) * w' := by
          rw [show chunk.length - a = 1 + (chunk.length - (a + 1)) by omega, Nat.add_mul,
            Nat.one_mul]
        omega)
    rw [Vector.length_toList] at this
    rw [← Nat.add_assoc, Nat.succ_mul, this]

/-- A chunk with consecutive offsets from `b` on is stored, if it has enough vectors and the buffer
enough room, or panics. Offsets beyond the buffer do not matter. -/
theorem storeChunk_any (F : Vector α w → Vector β w') (chunk : List (Vector α w))
    (pos : Nat → Res Nat) (b N : Nat) (hpos : ∀ j, (b + j) * w' ≤ N → pos j = ok ((b + j) * w')) :
    ∀ (k a : Nat) (out : List β), out.length = N → (b + a) * w' ≤ N →
      (∃ out', storeChunk F chunk pos (List.range' a k) out = ok out' ∧ out'.length = N ∧
        (0 < k → a + k ≤ chunk.length) ∧ (b + (a + k)) * w' ≤ N) ∨
      storeChunk F chunk pos (List.range' a k) out = panic := by
  intro k
  induction k with
  | zero => intro a out h1 h2; exact .inl ⟨out, rfl, h1, by omega, h2⟩
  | succ k ih =>
    intro a out h1 h2
    rw [List.range'_succ, storeChunk]
    by_cases ha : a < chunk.length
    · simp only [index, List.getElem?_eq_getElem ha, ok_bind, hpos a h2]
      rcases store_cases (F chunk[a]) out ((b + a) * w') with ⟨h3, e⟩ | ⟨-, e⟩
      · have hl := splice_length out ((b + a) * w') (F chunk[a]).toList (by simpa using h3)
        rw [e]
        simp only [ok_bind]
        rw [← Nat.succ_mul] at h3
        rcases ih (a + 1) (splice out ((b + a) * w') (F chunk[a]).toList) (by omega)
          (by rw [← Nat.add_assoc, ← h1]; exact h3) with ⟨o', e1, e2, e3, e4⟩ | e1
        · exact .inl ⟨o', e1, e2, fun _ => by
            rcases Nat.eq_zero_or_pos k with h | h
            · omega
            · have := e3 h; omega, by
            rw [show a + (k + 1) = a + 1 + k by omega]; exact e4⟩
        · exact .inr e1
      · rw [e]; exact .inr rfl
    · simp only [index, List.getElem?_eq_none (show chunk.length ≤ a by omega)]
      exact .inr rfl

/-- One iteration of the unrolled loop. -/
theorem forUnrolled_step {c : Cfg} (F : Vector α w → Vector β w') (pos : Nat → Nat → Res Nat)
    (amt : Nat) (ha0 : 0 < amt) (ha : amt ≤ 8) {it it' : T} (hend : next c it' = ok (none, it'))
    {vs : List (Vector α w)} (h : Runs c it vs (ok it')) (hv : vs ≠ []) (fuel i : Nat)
    (hi : i + 1 < c.usize) (s : Vector (Vector α w) 8) (out : List β) :
    ∃ it1 s1, Runs c it1 (vs.drop amt) (ok it') ∧
      forUnrolled c F pos amt (fuel + 1) ⟨it, amt, s⟩ i out =
        storeChunk F (vs.take amt) (pos i) (List.range amt) out >>= fun out =>
          forUnrolled c F pos amt fuel ⟨it1, amt, s1⟩ (i + 1) out := by
  obtain ⟨it1, s1, e1, e2, e3⟩ := unrolled_next hend h amt s ha0 ha
  refine ⟨it1, s1, e2, ?_⟩
  rw [if_neg hv] at e1
  simp only [forUnrolled, e1, ok_bind, ScratchRef.read, e3]
  rw [uadd_ok hi]
  simp only [ok_bind]

theorem forUnrolled_done {c : Cfg} (F : Vector α w → Vector β w') (pos : Nat → Nat → Res Nat)
    (amt : Nat) (ha0 : 0 < amt) (ha : amt ≤ 8) {it it' : T} (hend : next c it' = ok (none, it'))
    (h : Runs c it [] (ok it')) (fuel i : Nat) (s : Vector (Vector α w) 8) (out : List β) :
    forUnrolled c F pos amt (fuel + 1) ⟨it, amt, s⟩ i out = ok out := by
  obtain ⟨it1, s1, e1, e2, e3⟩ := unrolled_next hend h amt s ha0 ha
  rw [if_pos rfl] at e1
  simp [forUnrolled, e1]

/-- The loop with the offsets `(i * amt + j) * width`, from chunk `i` on. -/
theorem forUnrolled_chunkPos {c : Cfg} (F : Vector α w → Vector β w') (amt : Nat) (ha0 : 0 < amt)
    (ha : amt ≤ 8) (hw' : 0 < w') {it' : T} (hend : next c it' = ok (none, it')) :
    ∀ (m fuel i : Nat) (it : T) (vs : List (Vector α w)) (s : Vector (Vector α w) 8)
      (out : List β), Runs c it vs (ok it') → vs.length = m * amt → m < fuel →
      (i + m) * amt * w' ≤ out.length → out.length + 1 < c.usize →
      forUnrolled c F (chunkPos c amt w') amt fuel ⟨it, amt, s⟩ i out =
        ok (splice out (i * amt * w') (lanes (vs.map F))) := by
  intro m
  induction m with
  | zero =>
    intro fuel i it vs s out h hv hf ho hu
    obtain ⟨f, rfl⟩ : ∃ f, fuel = f + 1 := ⟨fuel - 1, by omega⟩
    obtain rfl : vs = [] := List.eq_nil_of_length_eq_zero (by omega)
    rw [forUnrolled_done F _ amt ha0 ha hend h]
    simp [splice_nil]
  | succ m ih =>
    intro fuel i it vs s out h hv hf ho hu
    obtain ⟨f, rfl⟩ : ∃ f, fuel = f + 1 := ⟨fuel - 1, by omega⟩
    have hv' : vs.length = m * amt + amt := by rw [hv, Nat.succ_mul]
    have hne : vs ≠ [] := by intro e; subst e; simp at hv'; omega
    have hmul : (i + (m + 1)) * amt * w' = i * amt * w' + amt * w' + m * amt * w' := by
      rw [show i + (m + 1) = i + 1 + m by omega, Nat.add_mul, Nat.add_mul, Nat.add_mul, Nat.add_mul,
        Nat.one_mul]
    have hiw : i ≤ i * amt * w' := by
      rw [Nat.mul_assoc]; exact Nat.le_mul_of_pos_right i (Nat.mul_pos ha0 hw')
    have haw : 0 < amt * w' := Nat.mul_pos ha0 hw'
    obtain ⟨it1, s1, h2, e⟩ := forUnrolled_step F (chunkPos c amt w') amt ha0 ha hend h hne f i
      (by omega) s out
    have htl : (vs.take amt).length = amt := by rw [List.length_take]; omega
    rw [e, List.range_eq_range', storeChunk_ok F (vs.take amt) (chunkPos c amt w' i) (i * amt) _ amt 0
      out (by omega) (by rw [htl, Nat.add_mul]; omega)]
    · simp only [ok_bind, Nat.add_zero, List.drop_zero]
      have hl : (splice out (i * amt * w') (lanes ((vs.take amt).map F))).length = out.length :=
        splice_length _ _ _ (by rw [lanes_length_map, htl]; omega)
      rw [ih f (i + 1) it1 (vs.drop amt) s1 _ h2 (by rw [List.length_drop]; omega) (by omega)
        (by rw [hl, show i + 1 + m = i + (m + 1) by omega]; exact ho) (by rw [hl]; exact hu)]
      congr 1
      have := splice_splice out (i * amt * w') (lanes ((vs.take amt).map F))
        (lanes ((vs.drop amt).map F)) (by
          rw [lanes_length_map, lanes_length_map, htl, List.length_drop, hv', Nat.add_sub_cancel]
          omega)
      rw [lanes_length_map, htl, ← lanes_append, ← List.map_append, List.take_append_drop] at this
      rw [Nat.succ_mul, Nat.add_mul, this]
    · intro j hj
      rw [htl] at hj
      have h3 : (i * amt + j) * w' + w' ≤ i * amt * w' + amt * w' := by
        rw [← Nat.succ_mul, ← Nat.add_mul]; exact Nat.mul_le_mul_right _ (by omega)
      have h4 : i * amt + j ≤ (i * amt + j) * w' := Nat.le_mul_of_pos_right _ hw'
      simp only [chunkPos]
      rw [umul_ok (by omega)]
      simp only [ok_bind]
      rw [uadd_ok (by omega)]
      simp only [ok_bind]
      rw [umul_ok (by omega)]

/-- **C85**: with the offsets `(i * amt + j) * width` the unrolled loop does the same
as the plain one, if the number of complete vectors is a multiple of `amt`. -/
theorem C85_unrolled_repaired [Packable α] (c : Cfg) (fuel amt : Nat) (data : List α)
    (d : Vector α w) (F : Vector α w → Vector β w') (out : List β) (hw : 0 < w) (hw' : 0 < w')
    (ha0 : 0 < amt) (ha : amt ≤ 8)
    (hlen : data.length + w < c.usize) (hout : out.length + 1 < c.usize)
    (hfuel : data.length / w < fuel) (hm : data.length / w % amt = 0)
    (hfit : data.length / w * w' ≤ out.length) :
    (do
      let u ← unroll (simdIter data d) amt
      forUnrolled c F (chunkPos c amt w') amt fuel u 0 out) =
      forStore c F fuel (simdIter data d) 0 out := by
  have h := simdIter_runs (represents_slice (w := w) c data) d hw hlen 0 (by omega)
  simp only [List.drop_zero] at h
  have hdm := Nat.div_add_mod (data.length - 0) w
  have hml := Nat.mod_lt (data.length - 0) hw
  rw [Nat.mul_comm] at hdm
  have hend := simdIter_next_none (represents_slice (w := w) c data)
    (p := 0 + (data.length - 0) / w * w) (d := d) (by omega) (by omega)
  have hmul : data.length / w / amt * amt = data.length / w :=
    Nat.div_mul_cancel (Nat.dvd_of_mod_eq_zero hm)
  have hle := Nat.div_le_self (data.length / w) amt
  rw [C85_for_store c fuel data d F out hw hw' hlen hout hfuel, if_pos hfit]
  simp only [unroll, Faster.assert, ha, decide_true, if_true, ok_bind]
  rw [simdIter, forUnrolled_chunkPos F amt ha0 ha hw' hend (data.length / w / amt) fuel 0 _ _ _ out h
    (by rw [fullWindows_length, hmul]) (by omega) (by rw [Nat.zero_add, hmul]; exact hfit) hout]
  simp [splice, lanes_length_map, fullWindows_length]

/-- The unrolled loop with an incomplete last chunk, or a buffer too short for the last chunk. Chunk
`i` is stored from window `B i` on. -/
theorem forUnrolled_panics {c : Cfg} (F : Vector α w → Vector β w') (pos : Nat → Nat → Res Nat)
    (amt : Nat) (ha0 : 0 < amt) (ha : amt ≤ 8) {it' : T} (hend : next c it' = ok (none, it'))
    (B : Nat → Nat) (N : Nat) (hB : ∀ i, i ≤ B i) (hB' : ∀ i, B (i + 1) ≤ B i + amt)
    (hpos : ∀ i j, (B i + j) * w' ≤ N → pos i j = ok ((B i + j) * w')) (hw' : 0 < w')
    (hN : N + 1 < c.usize) :
    ∀ (fuel i : Nat) (it : T) (vs : List (Vector α w)) (s : Vector (Vector α w) 8)
      (out : List β), Runs c it vs (ok it') → vs.length < fuel → out.length = N → B i * w' ≤ N →
      (vs.length % amt ≠ 0 ∨ vs ≠ [] ∧ N < (B (i + vs.length / amt - 1) + amt) * w') →
      forUnrolled c F pos amt fuel ⟨it, amt, s⟩ i out = panic := by
  intro fuel
  induction fuel with
  | zero => intro i it vs s out h hf; omega
  | succ f ih =>
    intro i it vs s out h hf ho hi hc
    have hne : vs ≠ [] := by
      rcases hc with h | h
      · intro e; subst e; simp at h
      · exact h.1
    have hpos' : 0 < vs.length := List.length_pos_iff.mpr hne
    have h1 := hB i
    have h2 : B i ≤ B i * w' := Nat.le_mul_of_pos_right _ hw'
    obtain ⟨it1, s1, h3, e⟩ := forUnrolled_step F pos amt ha0 ha hend h hne f i (by omega) s out
    rw [e, List.range_eq_range']
    rcases storeChunk_any F (vs.take amt) (pos i) (B i) N (fun j hj => hpos i j hj) amt 0 out ho
      (by simpa using hi) with ⟨o', e1, e2, e3, e4⟩ | e1
    · rw [e1]
      simp only [ok_bind]
      have h4 := e3 ha0
      rw [List.length_take] at h4
      rw [Nat.zero_add] at e4
      have h5 := Nat.mul_le_mul_right w' (hB' i)
      refine ih (i + 1) it1 (vs.drop amt) s1 o' h3 (by rw [List.length_drop]; omega) e2 (by omega) ?_
      rw [List.length_drop]
      by_cases hm : vs.length % amt = 0
      · obtain ⟨-, hc⟩ := hc.resolve_left (by omega)
        obtain ⟨q, hq⟩ := Nat.dvd_of_mod_eq_zero hm
        rw [hq, Nat.mul_div_cancel_left _ ha0] at hc
        have hq1 : q ≠ 1 := by
          rintro rfl
          rw [Nat.add_sub_cancel] at hc
          omega
        have hq0 : q ≠ 0 := by rintro rfl; omega
        obtain ⟨q, rfl⟩ : ∃ q', q = q' + 2 := ⟨q - 2, by omega⟩
        refine .inr ⟨?_, ?_⟩
        · intro e
          have := congrArg List.length e
          rw [List.length_drop, hq, Nat.mul_add, List.length_nil] at this
          omega
        · rw [hq, show amt * (q + 2) - amt = amt * (q + 1) by
            rw [show q + 2 = q + 1 + 1 by omega, Nat.mul_succ, Nat.add_sub_cancel],
            Nat.mul_div_cancel_left _ ha0, show i + 1 + (q + 1) - 1 = i + (q + 2) - 1 by omega]
          exact hc
      · left
        rwa [← Nat.mod_eq_sub_mod (by omega)]
    · rw [e1]; rfl

theorem benchPos_ok {c : Cfg} {i j N : Nat} (hw' : 0 < w') (hN : N + 1 < c.usize)
    (h : (i + j) * w' ≤ N) : benchPos c w' i j = ok ((i + j) * w') := by
  have h1 : i + j ≤ (i + j) * w' := Nat.le_mul_of_pos_right _ hw'
  simp only [benchPos]
  rw [uadd_ok (by omega)]
  simp only [ok_bind]
  rw [umul_ok (by omega)]

theorem chunkPos_ok {c : Cfg} {i j N amt : Nat} (hw' : 0 < w') (hN : N + 1 < c.usize)
    (h : (i * amt + j) * w' ≤ N) : chunkPos c amt w' i j = ok ((i * amt + j) * w') := by
  have h1 : i * amt + j ≤ (i * amt + j) * w' := Nat.le_mul_of_pos_right _ hw'
  simp only [chunkPos]
  rw [umul_ok (by omega)]
  simp only [ok_bind]
  rw [uadd_ok (by omega)]
  simp only [ok_bind]
  rw [umul_ok (by omega)]

/-- **C85**: if the last chunk is incomplete, the body indexes past its end and the
loop panics; this is so with the offsets of the benches and with the repaired ones. -/
theorem C85_unrolled_incomplete [Packable α] (c : Cfg) (fuel amt : Nat) (data : List α)
    (d : Vector α w) (F : Vector α w → Vector β w') (out : List β) (hw : 0 < w) (hw' : 0 < w')
    (ha0 : 0 < amt) (ha : amt ≤ 8) (hlen : data.length + w < c.usize)
    (hout : out.length + 1 < c.usize)
    (hfuel : data.length / w < fuel) (hm : data.length / w % amt ≠ 0) :
    (do
      let u ← unroll (simdIter data d) amt
      forUnrolled c F (benchPos c w') amt fuel u 0 out) = panic ∧
    (do
      let u ← unroll (simdIter data d) amt
      forUnrolled c F (chunkPos c amt w') amt fuel u 0 out) = panic := by
  have h := simdIter_runs (represents_slice (w := w) c data) d hw hlen 0 (by omega)
  simp only [List.drop_zero] at h
  have hdm := Nat.div_add_mod (data.length - 0) w
  have hml := Nat.mod_lt (data.length - 0) hw
  rw [Nat.mul_comm] at hdm
  have hend := simdIter_next_none (represents_slice (w := w) c data)
    (p := 0 + (data.length - 0) / w * w) (d := d) (by omega) (by omega)
  simp only [unroll, Faster.assert, ha, decide_true, if_true, ok_bind]
  constructor
  · exact forUnrolled_panics F _ amt ha0 ha hend (fun i => i) out.length (fun i => Nat.le_refl i)
      (fun i => by omega) (fun i j hj => benchPos_ok hw' hout hj) hw' hout fuel 0 _ _ _ out h
      (by rw [fullWindows_length]; exact hfuel) rfl (by simp)
      (.inl (by rw [fullWindows_length]; exact hm))
  · exact forUnrolled_panics F _ amt ha0 ha hend (fun i => i * amt) out.length
      (fun i => Nat.le_mul_of_pos_right i ha0)
      (fun i => by rw [Nat.succ_mul]) (fun i j hj => chunkPos_ok hw' hout hj) hw' hout
      fuel 0 _ _ _ out h (by rw [fullWindows_length]; exact hfuel) rfl (by simp)
      (.inl (by rw [fullWindows_length]; exact hm))

/-- **C85**: a buffer which is too short makes the unrolled loops panic. The loops of the benches
need room for `m + amt - 1` results of `m` chunks, the repaired ones for all results. -/
theorem C85_unrolled_short [Packable α] (c : Cfg) (fuel amt m : Nat) (data : List α)
    (d : Vector α w) (F : Vector α w → Vector β w') (out : List β) (hw : 0 < w) (hw' : 0 < w')
    (ha0 : 0 < amt) (ha : amt ≤ 8) (hm0 : 0 < m) (hm : data.length / w = m * amt)
    (hlen : data.length + w < c.usize) (hout : out.length + 1 < c.usize)
    (hfuel : data.length / w < fuel) :
    (out.length < (m + amt - 1) * w' → (do
      let u ← unroll (simdIter data d) amt
      forUnrolled c F (benchPos c w') amt fuel u 0 out) = panic) ∧
    (out.length < m * amt * w' → (do
      let u ← unroll (simdIter data d) amt
      forUnrolled c F (chunkPos c amt w') amt fuel u 0 out) = panic) := by
  have h := simdIter_runs (represents_slice (w := w) c data) d hw hlen 0 (by omega)
  simp only [List.drop_zero] at h
  have hdm := Nat.div_add_mod (data.length - 0) w
  have hml := Nat.mod_lt (data.length - 0) hw
  rw [Nat.mul_comm] at hdm
  have hend := simdIter_next_none (represents_slice (w := w) c data)
    (p := 0 + (data.length - 0) / w * w) (d := d) (by omega) (by omega)
  have hne : fullWindows w data ≠ [] := by
    intro e
    have := congrArg List.length e
    rw [fullWindows_length, hm, List.length_nil] at this
    have := Nat.mul_pos hm0 ha0
    omega
  simp only [unroll, Faster.assert, ha, decide_true, if_true, ok_bind]
  refine ⟨fun hs => ?_, fun hs => ?_⟩
  · exact forUnrolled_panics F _ amt ha0 ha hend (fun i => i) out.length (fun i => Nat.le_refl i)
      (fun i => by omega) (fun i j hj => benchPos_ok hw' hout hj) hw' hout fuel 0 _ _ _ out h
      (by rw [fullWindows_length]; exact hfuel) rfl (by simp)
      (.inr ⟨hne, by
        rw [fullWindows_length, hm, Nat.mul_div_cancel _ ha0]
        rw [show 0 + m - 1 + amt = m + amt - 1 by omega]; exact hs⟩)
  · exact forUnrolled_panics F _ amt ha0 ha hend (fun i => i * amt) out.length
      (fun i => Nat.le_mul_of_pos_right i ha0)
      (fun i => by rw [Nat.succ_mul]) (fun i j hj => chunkPos_ok hw' hout hj) hw' hout
      fuel 0 _ _ _ out h (by rw [fullWindows_length]; exact hfuel) rfl (by simp)
      (.inr ⟨hne, by
        rw [fullWindows_length, hm, Nat.mul_div_cancel _ ha0]
        rw [← Nat.succ_mul, show Nat.succ (0 + m - 1) = m by omega]; exact hs⟩)

/-- **C85**: with no complete vector the unrolled loops leave the buffer alone. -/
theorem C85_unrolled_none [Packable α] (c : Cfg) (fuel amt : Nat) (data : List α)
    (d : Vector α w) (F : Vector α w → Vector β w') (pos : Nat → Nat → Res Nat) (out : List β)
    (hw : 0 < w) (ha0 : 0 < amt) (ha : amt ≤ 8) (hm : data.length < w)
    (hlen : data.length + w < c.usize) (hfuel : 0 < fuel) :
    (do
      let u ← unroll (simdIter data d) amt
      forUnrolled c F pos amt fuel u 0 out) = ok out := by
  have h := simdIter_runs (represents_slice (w := w) c data) d hw hlen 0 (by omega)
  simp only [List.drop_zero] at h
  have hend := simdIter_next_none (represents_slice (w := w) c data)
    (p := 0 + (data.length - 0) / w * w) (d := d)
    (by rw [Nat.sub_zero, Nat.div_eq_of_lt hm]; omega) (by rw [Nat.sub_zero, Nat.div_eq_of_lt hm]; omega)
  simp only [unroll, Faster.assert, ha, decide_true, if_true, ok_bind]
  obtain ⟨f, rfl⟩ : ∃ f, fuel = f + 1 := ⟨fuel - 1, by omega⟩
  rw [fullWindows_short hm] at h
  exact forUnrolled_done F pos amt ha0 ha hend h f 0 _ out

/-- Vector `q` of a list of lanes, lane by lane. -/
theorem splice_block (out L : List β) (b k t : Nat) (hw' : 0 < w') (hL : L.length = k * w')
    (hb : (b + k) * w' ≤ out.length) :
    (splice out (b * w') L)[t]? =
      if b ≤ t / w' ∧ t / w' < b + k then L[(t / w' - b) * w' + t % w']? else out[t]? := by
  have hdm := Nat.div_add_mod t w'
  have hml := Nat.mod_lt t hw'
  rw [Nat.mul_comm] at hdm
  rw [Nat.add_mul] at hb
  rw [splice_getElem? _ _ _ (by omega)]
  by_cases h1 : b ≤ t / w'
  · have h2 : b * w' ≤ t / w' * w' := Nat.mul_le_mul_right _ h1
    rw [if_neg (by omega), hL]
    by_cases h3 : t / w' < b + k
    · have h4 : (t / w' + 1) * w' ≤ (b + k) * w' := Nat.mul_le_mul_right _ h3
      rw [Nat.succ_mul, Nat.add_mul] at h4
      rw [if_pos (by omega), if_pos ⟨h1, h3⟩]
      congr 1
      rw [Nat.sub_mul]
      omega
    · have h4 : (b + k) * w' ≤ t / w' * w' := Nat.mul_le_mul_right _ (by omega)
      rw [Nat.add_mul] at h4
      rw [if_neg (by omega), if_neg (by omega)]
  · have h2 : (t / w' + 1) * w' ≤ b * w' := Nat.mul_le_mul_right _ (by omega)
    rw [Nat.succ_mul] at h2
    rw [if_pos (by omega), if_neg (by omega)]

theorem lanes_drop (vs : List (Vector β w')) (k x : Nat) :
    (lanes (vs.drop k))[x]? = (lanes vs)[k * w' + x]? := by
  by_cases hk : k ≤ vs.length
  · conv => rhs; rw [← List.take_append_drop k vs, lanes_append]
    rw [List.getElem?_append_right (by rw [lanes_length, List.length_take]; rw [Nat.min_eq_left hk]; omega),
      lanes_length, List.length_take, Nat.min_eq_left hk, Nat.add_sub_cancel_left]
  · rw [List.drop_of_length_le (by omega), List.getElem?_eq_none (by simp),
      List.getElem?_eq_none]
    rw [lanes_length]
    have := Nat.mul_le_mul_right w' (show vs.length ≤ k by omega)
    omega

/-- The number of the vector which ends up in window `j` of the buffer when `m ≥ 1`
chunks are stored with the offsets of the benches from chunk number `i` on. -/
def benchSrc (amt m i j : Nat) : Option Nat :=
  if j < i then none
  else if j < i + m then some (amt * (j - i))
  else if j < i + m + amt - 1 then some (amt * (m - 1) + (j - (i + m - 1)))
  else none

/-- The loop with the offsets of the benches. -/
theorem forUnrolled_benchPos {c : Cfg} (F : Vector α w → Vector β w') (amt : Nat) (ha0 : 0 < amt)
    (ha : amt ≤ 8) (hw' : 0 < w') {it' : T} (hend : next c it' = ok (none, it')) :
    ∀ (m fuel i : Nat) (it : T) (vs : List (Vector α w)) (s : Vector (Vector α w) 8)
      (out : List β), Runs c it vs (ok it') → vs.length = (m + 1) * amt → m + 1 < fuel →
      (i + m + amt) * w' ≤ out.length → out.length + 1 < c.usize →
      ∃ out', forUnrolled c F (benchPos c w') amt fuel ⟨it, amt, s⟩ i out = ok out' ∧
        out'.length = out.length ∧
        ∀ t, out'[t]? = match benchSrc amt (m + 1) i (t / w') with
          | none => out[t]?
          | some q => (lanes (vs.map F))[q * w' + t % w']? := by
  -- one chunk
  have first : ∀ (m f i : Nat) (it : T) (vs : List (Vector α w)) (s : Vector (Vector α w) 8)
      (out : List β), Runs c it vs (ok it') → vs.length = (m + 1) * amt →
      (i + amt) * w' ≤ out.length → out.length + 1 < c.usize →
      ∃ it1 s1 out1, Runs c it1 (vs.drop amt) (ok it') ∧
        forUnrolled c F (benchPos c w') amt (f + 1) ⟨it, amt, s⟩ i out =
          forUnrolled c F (benchPos c w') amt f ⟨it1, amt, s1⟩ (i + 1) out1 ∧
        out1.length = out.length ∧
        ∀ t, out1[t]? = if i ≤ t / w' ∧ t / w' < i + amt
          then (lanes (vs.map F))[(t / w' - i) * w' + t % w']? else out[t]? := by
    intro m f i it vs s out h hv ho hu
    have hv' : vs.length = m * amt + amt := by rw [hv, Nat.succ_mul]
    have hne : vs ≠ [] := by intro e; subst e; simp at hv'; omega
    have htl : (vs.take amt).length = amt := by rw [List.length_take]; omega
    have hiw : i + amt ≤ (i + amt) * w' := Nat.le_mul_of_pos_right _ hw'
    obtain ⟨it1, s1, h2, e⟩ := forUnrolled_step F (benchPos c w') amt ha0 ha hend h hne f i
      (by omega) s out
    refine ⟨it1, s1, splice out (i * w') (lanes ((vs.take amt).map F)), h2, ?_, ?_, ?_⟩
    · rw [e, List.range_eq_range', storeChunk_ok F (vs.take amt) (benchPos c w' i) i _ amt 0
        out (by omega) (by rw [htl]; exact ho)]
      · simp only [ok_bind, Nat.add_zero, List.drop_zero]
      · intro j hj
        rw [htl] at hj
        have h3 : (i + j) * w' ≤ (i + amt) * w' := Nat.mul_le_mul_right _ (by omega)
        simp only [benchPos]
        rw [uadd_ok (by omega)]
        simp only [ok_bind]
        rw [umul_ok (by omega)]
    · exact splice_length _ _ _ (by rw [lanes_length_map, htl, ← Nat.add_mul]; exact ho)
    · intro t
      rw [splice_block out _ i amt t hw' (by rw [lanes_length_map, htl]) ho]
      split
      · next hin =>
        have h3 : (t / w' - i + 1) * w' ≤ amt * w' := Nat.mul_le_mul_right _ (by omega)
        have h4 := Nat.mod_lt t hw'
        rw [Nat.succ_mul] at h3
        have : lanes (vs.map F) = lanes ((vs.take amt).map F) ++ lanes ((vs.drop amt).map F) := by
          rw [← lanes_append, ← List.map_append, List.take_append_drop]
        rw [this, List.getElem?_append_left (by rw [lanes_length_map, htl]; omega)]
      · rfl
  intro m
  induction m with
  | zero =>
    intro fuel i it vs s out h hv hf ho hu
    obtain ⟨f, rfl⟩ : ∃ f, fuel = f + 2 := ⟨fuel - 2, by omega⟩
    obtain ⟨it1, s1, out1, h1, e1, hl, hs⟩ := first 0 (f + 1) i it vs s out h hv ho hu
    rw [List.drop_of_length_le (by omega)] at h1
    refine ⟨out1, ?_, hl, ?_⟩
    · rw [e1, forUnrolled_done F _ amt ha0 ha hend h1]
    · intro t
      rw [hs t]
      unfold benchSrc
      by_cases c1 : t / w' < i
      · rw [if_pos c1, if_neg (by omega)]
      · by_cases c2 : t / w' < i + amt
        · rw [if_pos (by omega), if_neg c1]
          by_cases c3 : t / w' < i + (0 + 1)
          · rw [if_pos c3, show t / w' - i = 0 by omega]; simp
          · rw [if_neg c3, if_pos (by omega)]
            simp
        · rw [if_neg (by omega), if_neg c1, if_neg (by omega), if_neg (by omega)]
  | succ m ih =>
    intro fuel i it vs s out h hv hf ho hu
    obtain ⟨f, rfl⟩ : ∃ f, fuel = f + 1 := ⟨fuel - 1, by omega⟩
    have hmono : (i + amt) * w' ≤ (i + (m + 1) + amt) * w' := Nat.mul_le_mul_right _ (by omega)
    obtain ⟨it1, s1, out1, h1, e1, hl, hs⟩ := first (m + 1) f i it vs s out h hv
      (by omega) hu
    have hv' : vs.length = (m + 1) * amt + amt := by rw [hv, Nat.succ_mul]
    obtain ⟨out', e2, hl2, hs2⟩ := ih f (i + 1) it1 (vs.drop amt) s1 out1 h1
      (by rw [List.length_drop]; omega) (by omega)
      (by rw [hl, show i + 1 + m + amt = i + (m + 1) + amt by omega]; exact ho) (by rw [hl]; exact hu)
    refine ⟨out', e1.trans e2, hl2.trans hl, ?_⟩
    intro t
    rw [hs2 t]
    have hd : ∀ q, (lanes ((vs.drop amt).map F))[q * w' + t % w']? =
        (lanes (vs.map F))[(amt + q) * w' + t % w']? := by
      intro q
      rw [List.map_drop, lanes_drop, Nat.add_mul, Nat.add_assoc]
    unfold benchSrc
    by_cases c1 : t / w' < i
    · rw [if_pos (by omega), if_pos c1]
      simp only []
      rw [hs t, if_neg (by omega)]
    · by_cases c2 : t / w' = i
      · rw [if_pos (by omega), if_neg c1, if_pos (by omega)]
        simp only []
        rw [hs t, if_pos (by omega), c2]
        simp
      · by_cases c3 : t / w' < i + (m + 1 + 1)
        · rw [if_neg (by omega), if_pos (by omega), if_neg c1, if_pos c3]
          simp only []
          rw [hd, show t / w' - i = (t / w' - (i + 1)) + 1 by omega, Nat.mul_succ, Nat.add_comm amt]
        · by_cases c4 : t / w' < i + (m + 1 + 1) + amt - 1
          · rw [if_neg (by omega), if_neg (by omega), if_pos (by omega), if_neg c1, if_neg c3,
              if_pos c4]
            simp only []
            rw [hd, show m + 1 - 1 = m by omega, show m + 1 + 1 - 1 = m + 1 by omega, Nat.mul_succ,
              show t / w' - (i + 1 + (m + 1) - 1) = t / w' - (i + (m + 1 + 1) - 1) by omega]
            rw [← Nat.add_assoc amt, Nat.add_comm amt (amt * m)]
          · rw [if_neg (by omega), if_neg (by omega), if_neg (by omega), if_neg c1, if_neg c3,
              if_neg c4]
            simp only []
            rw [hs t, if_neg (by omega)]

/-- **C85 is false for the unrolled loops of the benches.** They store vector `j` of
chunk `i` at window `i + j` (benches/usage.rs:61, 107), so later chunks overwrite
earlier ones: of the first `m` windows, window `j` gets vector `amt · j`; the next
`amt - 1` windows get the rest of the last chunk, and all others keep their old
contents. `m` is the number of chunks. -/
theorem C85_unrolled_exact [Packable α] (c : Cfg) (fuel amt m : Nat) (data : List α)
    (d : Vector α w) (F : Vector α w → Vector β w') (out : List β) (hw : 0 < w) (hw' : 0 < w')
    (ha0 : 0 < amt) (ha : amt ≤ 8) (hm0 : 0 < m) (hm : data.length / w = m * amt)
    (hlen : data.length + w < c.usize) (hout : out.length + 1 < c.usize)
    (hfuel : data.length / w + 1 < fuel) (hfit : (m + amt - 1) * w' ≤ out.length) :
    ∃ out', (do
      let u ← unroll (simdIter data d) amt
      forUnrolled c F (benchPos c w') amt fuel u 0 out) = ok out' ∧ out'.length = out.length ∧
      ∀ t, out'[t]? =
        if t / w' < m then (lanes ((fullWindows w data).map F))[amt * (t / w') * w' + t % w']?
        else if t / w' < m + amt - 1 then (lanes ((fullWindows w data).map F))[
          (amt * (m - 1) + (t / w' - (m - 1))) * w' + t % w']?
        else out[t]? := by
  have h := simdIter_runs (represents_slice (w := w) c data) d hw hlen 0 (by omega)
  simp only [List.drop_zero] at h
  have hdm := Nat.div_add_mod (data.length - 0) w
  have hml := Nat.mod_lt (data.length - 0) hw
  rw [Nat.mul_comm] at hdm
  have hend := simdIter_next_none (represents_slice (w := w) c data)
    (p := 0 + (data.length - 0) / w * w) (d := d) (by omega) (by omega)
  have hma : m ≤ m * amt := Nat.le_mul_of_pos_right _ ha0
  obtain ⟨out', e1, e2, e3⟩ := forUnrolled_benchPos F amt ha0 ha hw' hend (m - 1) fuel 0 _ _
    (Vector.replicate 8 Packed.default) out h
    (by rw [fullWindows_length, show m - 1 + 1 = m by omega]; exact hm) (by omega)
    (by rw [show 0 + (m - 1) + amt = m + amt - 1 by omega]; exact hfit) hout
  refine ⟨out', ?_, e2, ?_⟩
  · simp only [unroll, Faster.assert, ha, decide_true, if_true, ok_bind]
    exact e1
  · intro t
    rw [e3 t]
    unfold benchSrc
    rw [if_neg (Nat.not_lt_zero _), show 0 + (m - 1 + 1) = m by omega, show m - 1 + 1 - 1 = m - 1 by omega]
    by_cases c1 : t / w' < m
    · rw [if_pos c1, if_pos c1]
      rfl
    · rw [if_neg c1, if_neg c1]
      by_cases c2 : t / w' < m + amt - 1
      · rw [if_pos c2, if_pos c2]
      · rw [if_neg c2, if_neg c2]

end

/-- **C85 is false**: sixteen one-lane vectors, chunks of eight, copied. The plain loop
copies; the loop of the benches loses six of them and leaves seven windows alone. -/
theorem C85_false :
    let data : List (BitVec 8) := [0, 1, 2, 3, 4, 5, 6, 7, 8, 9, 10, 11, 12, 13, 14, 15]
    let out : List (BitVec 8) := List.replicate 16 99
    forStore release64 (fun v : Vector (BitVec 8) 1 => v) 99 (simdIter data #v[0]) 0 out = ok data ∧
    (do
      let u ← unroll (simdIter (w := 1) data #v[0]) 8
      forUnrolled release64 (fun v : Vector (BitVec 8) 1 => v) (benchPos release64 1) 8 99 u 0 out) =
      ok [0, 8, 9, 10, 11, 12, 13, 14, 15, 99, 99, 99, 99, 99, 99, 99] := by decide +kernel

/-- **C85** for the unrolled loops of the benches, the part which holds: one chunk is
stored as by the plain loop. Missing: more than one chunk (`C85_unrolled_exact`). -/
theorem C85_unrolled_partial {α β : Type} {w w' : Nat} [Packable α] (c : Cfg) (fuel amt : Nat)
    (data : List α) (d : Vector α w) (F : Vector α w → Vector β w') (out : List β) (hw : 0 < w)
    (hw' : 0 < w') (ha0 : 0 < amt) (ha : amt ≤ 8) (hm : data.length / w = amt)
    (hlen : data.length + w < c.usize) (hout : out.length + 1 < c.usize)
    (hfuel : data.length / w + 1 < fuel) (hfit : amt * w' ≤ out.length) :
    (do
      let u ← unroll (simdIter data d) amt
      forUnrolled c F (benchPos c w') amt fuel u 0 out) =
      forStore c F fuel (simdIter data d) 0 out := by
  obtain ⟨o, e1, e2, e3⟩ := C85_unrolled_exact c fuel amt 1 data d F out hw hw' ha0 ha (by omega)
    (by omega) hlen hout hfuel (by rw [Nat.add_sub_cancel_left]; exact hfit)
  rw [e1, C85_for_store c fuel data d F out hw hw' hlen hout (by omega), if_pos (by rw [hm]; exact hfit)]
  congr 1
  have hL : (lanes ((fullWindows w data).map F)).length = amt * w' := by
    rw [lanes_length_map, fullWindows_length, hm]
  apply List.ext_getElem?
  intro t
  have hs := splice_block out (lanes ((fullWindows w data).map F)) 0 amt t hw' hL
    (by rw [Nat.zero_add]; exact hfit)
  have he : splice out (0 * w') (lanes ((fullWindows w data).map F)) =
      lanes ((fullWindows w data).map F) ++ out.drop (data.length / w * w') := by
    simp [splice, hL, hm]
  rw [← he, hs, e3 t, Nat.add_sub_cancel_left]
  by_cases c1 : t / w' < 1
  · rw [if_pos c1, if_pos ⟨Nat.zero_le _, by omega⟩, Nat.lt_one_iff.mp c1]; simp
  · rw [if_neg c1]
    by_cases c2 : t / w' < amt
    · rw [if_pos c2, if_pos ⟨Nat.zero_le _, by omega⟩]; simp
    · rw [if_neg c2, if_neg (by omega)]

/-- Five elements, two lanes: the last element is not looked at. -/
example : forStore debug64 (fun v : Vector (BitVec 8) 2 => v.map (· + 1)) 9
    (simdIter [1#8, 2, 3, 4, 5] #v[0, 0]) 0 [0, 0, 0, 0, 0] = ok [2, 3, 4, 5, 0] := by decide +kernel

end Faster
