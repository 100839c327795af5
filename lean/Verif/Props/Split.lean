import Verif.Props.Unwind
/-
C118: a slice cut at a multiple of the number of lanes can be processed in parts.
-/
namespace Faster
open Res SIMDSized SIMDIterable SIMDIterator

variable {α β σ : Type} {w w' : Nat}

theorem calls_append (hw : 0 < w) (d : Vector α w) (b : List α) : ∀ (n : Nat) (a : List α),
    a.length = n * w → calls w d (a ++ b) = calls w d a ++ calls w d b
  | 0, a, ha => by
    have e : a = [] := List.eq_nil_of_length_eq_zero (by omega)
    rw [e, calls_nil]; rfl
  | n + 1, a, ha => by
    rw [Nat.succ_mul] at ha
    rw [calls_cons hw d (l := a ++ b) (by simp; omega), calls_cons hw d (l := a) (by omega),
      List.drop_append_of_le_length (by omega), calls_append hw d b n (a.drop w) (by simp; omega),
      List.cons_append]
    congr 1
    ext i hi
    simp only [windowAt, Vector.getElem_ofFn, Nat.zero_add]
    rw [List.getElem_append_left]

/-- **C118**: the closure calls of a pass over `a ++ b` are those of a pass over `a` and then those
of a pass over `b`, if `a` ends with a full vector. -/
theorem C118_calls (hw : 0 < w) (d : Vector α w) (a b : List α) (ha : w ∣ a.length) :
    calls w d (a ++ b) = calls w d a ++ calls w d b := by
  obtain ⟨n, hn⟩ := ha
  exact calls_append hw d b n a (by rw [hn, Nat.mul_comm])

/-- **C118**, `simd_do_each`: one pass over the whole does what two passes over the parts do with
the same closure. -/
theorem C118_do_each (c : Cfg) (fuel : Nat) (a b : List α) (d : Vector α w) (st : σ)
    (f : FnMut σ (Vector α w) Unit) (hw : 0 < w) (ha : w ∣ a.length)
    (hlen : (a ++ b).length + w < c.usize) (hfuel : (a ++ b).length / w < fuel) :
    (simdDoEach c fuel (simdIter (a ++ b) d) st f >>= fun p => ok p.2) = (do
      let (_, st1) ← simdDoEach c fuel (simdIter a d) st f
      let (_, st2) ← simdDoEach c fuel (simdIter b d) st1 f
      ok st2) := by
  have ha' : a.length / w ≤ (a ++ b).length / w := Nat.div_le_div_right (by simp)
  have hb' : b.length / w ≤ (a ++ b).length / w := Nat.div_le_div_right (by simp)
  have hl : (a ++ b).length = a.length + b.length := List.length_append
  rw [C02_do_each_calls c fuel _ d st f hw hlen hfuel,
    C02_do_each_calls c fuel a d st f hw (by omega) (by omega), C118_calls hw d a b ha, callAll_append]
  simp only [bind_assoc, ok_bind]
  congr 1; funext p
  rw [C02_do_each_calls c fuel b d p.2 f hw (by omega) (by omega)]
  simp only [bind_assoc, ok_bind]

/-- **C118**, `simd_reduce`: the reduction of the whole continues that of the first part. -/
theorem C118_reduce {A : Type} (c : Cfg) (fuel : Nat) (a b : List α) (d : Vector α w) (start : A)
    (st : σ) (f : σ → A → Vector α w → Res (A × σ)) (hw : 0 < w) (ha : w ∣ a.length)
    (hlen : (a ++ b).length + w < c.usize) (hfuel : (a ++ b).length / w < fuel) :
    (simdReduce c fuel (simdIter (a ++ b) d) start st f >>= fun p => ok p.2) = (do
      let (_, acc, st1) ← simdReduce c fuel (simdIter a d) start st f
      let (_, acc, st2) ← simdReduce c fuel (simdIter b d) acc st1 f
      ok (acc, st2)) := by
  have ha' : a.length / w ≤ (a ++ b).length / w := Nat.div_le_div_right (by simp)
  have hb' : b.length / w ≤ (a ++ b).length / w := Nat.div_le_div_right (by simp)
  have hl : (a ++ b).length = a.length + b.length := List.length_append
  rw [C03_reduce_fold c fuel _ d start st f hw hlen hfuel,
    C03_reduce_fold c fuel a d start st f hw (by omega) (by omega), C118_calls hw d a b ha,
    List.foldlM_append]
  simp only [bind_assoc, ok_bind]
  congr 1; funext p
  rw [C03_reduce_fold c fuel b d p.1 p.2 f hw (by omega) (by omega)]
  simp only [bind_assoc, ok_bind]

/-- **C118**, parallel reduction: if the closure applies an associative operation with identity `e`
to the lanes, the parts can be reduced independently of each other. -/
theorem C118_parallel (c : Cfg) (fuel : Nat) (a b : List α) (d : Vector α w) (op : α → α → α) (e : α)
    (hassoc : ∀ x y z, op (op x y) z = op x (op y z)) (hid : ∀ x, op e x = x)
    (hid' : ∀ x, op x e = x) (hw : 0 < w) (ha : w ∣ a.length)
    (hlen : (a ++ b).length + w < c.usize) (hfuel : (a ++ b).length / w < fuel) :
    let reduce := fun l => simdReduce c fuel (simdIter l d) (Vector.replicate w e) ()
      (fun _ acc v => ok (acc.zipWith op v, ())) >>= fun p => ok p.2.1
    reduce (a ++ b) = (do
      let x ← reduce a
      let y ← reduce b
      ok (x.zipWith op y)) := by
  have ha' : a.length / w ≤ (a ++ b).length / w := Nat.div_le_div_right (by simp)
  have hb' : b.length / w ≤ (a ++ b).length / w := Nat.div_le_div_right (by simp)
  have hl : (a ++ b).length = a.length + b.length := List.length_append
  have h := fun l h1 h2 => C03_reduce_foldl c fuel l d (Vector.replicate w e)
    (fun (acc v : Vector α w) => acc.zipWith op v) hw h1 h2
  have h1 := h (a ++ b) hlen hfuel
  have h2 := h a (by omega) (by omega)
  have h3 := h b (by omega) (by omega)
  simp only [h1, h2, h3]
  rw [C118_calls hw d a b ha, List.foldl_append]
  simp only [ok_bind]
  congr 1
  exact foldl_op (M := Vector α w) (fun x y => x.zipWith op y) (Vector.replicate w e)
    (by intro x y z; ext i hi; simp [hassoc]) (by intro x; ext i hi; simp [hid])
    (by intro x; ext i hi; simp [hid']) _ _

/-- **C118**, `simd_map` and `scalar_collect`: with any closure which changes state or the lane
size, the result for the whole is the results for the parts, one after the other. -/
theorem C118_collect [Packable α] [Packable β] (c : Cfg) (fuel : Nat) (a b : List α) (d : Vector α w)
    (st : σ) (f : FnMut σ (Vector α w) (Vector β w')) (hw : 0 < w) (hw' : 0 < w') (ha : w ∣ a.length)
    (hs : 0 < Packable.size β) (hsize : w * Packable.size α = w' * Packable.size β)
    (hlen : (a ++ b).length + w < c.usize) (hlen' : ((a ++ b).length / w + 1) * w' < c.usize)
    (hvec : w * Packable.size α < c.usize) (hfuel : (a ++ b).length / w < fuel) :
    (scalarCollect c fuel (simdMap (simdIter (a ++ b) d) st f) >>= fun p => ok (p.1.st, p.2)) = (do
      let (m1, xs) ← scalarCollect c fuel (simdMap (simdIter a d) st f)
      let (m2, ys) ← scalarCollect c fuel (simdMap (simdIter b d) m1.st f)
      ok (m2.st, xs ++ ys)) := by
  have ha' : a.length / w ≤ (a ++ b).length / w := Nat.div_le_div_right (by simp)
  have hb' : b.length / w ≤ (a ++ b).length / w := Nat.div_le_div_right (by simp)
  have hl : (a ++ b).length = a.length + b.length := List.length_append
  have h1 := Nat.mul_le_mul_right w' (Nat.succ_le_succ ha')
  have h2 := Nat.mul_le_mul_right w' (Nat.succ_le_succ hb')
  have hm : a.length % w = 0 := Nat.mod_eq_zero_of_dvd ha
  have hm2 : (a ++ b).length % w = b.length % w := by rw [hl, Nat.add_mod, hm]; simp
  rw [C05_collect_any_closure c fuel _ d st f hw hw' hs hsize hlen hlen' hvec hfuel,
    C05_collect_any_closure c fuel a d st f hw hw' hs hsize (by omega) (by simp only [Nat.succ_eq_add_one] at h1; omega)
      hvec (by omega), C118_calls hw d a b ha, callAll_append]
  simp only [bind_assoc, ok_bind]
  congr 1; funext p
  rw [C05_collect_any_closure c fuel b d p.2 f hw hw' hs hsize (by omega)
    (by simp only [Nat.succ_eq_add_one] at h2; omega) hvec (by omega)]
  simp only [bind_assoc, ok_bind]
  cases hq : callAll f p.2 (calls w d b) with
  | ok q =>
    simp only [ok_bind, hm2, hm, Nat.sub_zero, Nat.mod_self, Nat.zero_mul, Nat.zero_div, unpad_zero]
    congr 2
    rcases List.eq_nil_or_concat q.1 with e | ⟨l, u, e⟩
    · have hlq := callAll_length f p.2 _ hq
      rw [e] at hlq ⊢
      have hb0 : b.length % w = 0 := by
        by_cases h : b.length % w = 0
        · exact h
        · simp [calls, h] at hlq
      rw [hb0, Nat.sub_zero, Nat.mod_self, Nat.zero_mul, Nat.zero_div, unpad_zero, unpad_zero]
      simp
    · rw [e, List.concat_eq_append, ← List.append_assoc, unpad_concat, unpad_concat, lanes_append]
      simp
  | _ => rfl

/-- **C118**, `simd_for_each`: modifying the whole slice is modifying the parts. -/
theorem C118_for_each [Packable α] (c : Cfg) (fuel : Nat) (a b : List α) (d : Vector α w)
    (st st1 st2 : σ) (f : FnMut σ (Vector α w) (Vector α w)) (hw : 0 < w) (ha : w ∣ a.length)
    (hlen : (a ++ b).length + w < c.usize) (hfuel : (a ++ b).length / w < fuel)
    (us vs : List (Vector α w)) (h1 : callAll f st (calls w d a) = ok (us, st1))
    (h2 : callAll f st1 (calls w d b) = ok (vs, st2)) :
    ∃ xs ys, simdForEach c fuel st f (simdIter a d) = (ok st1, ⟨a.length, ⟨xs⟩, d⟩) ∧
      simdForEach c fuel st1 f (simdIter b d) = (ok st2, ⟨b.length, ⟨ys⟩, d⟩) ∧
      simdForEach c fuel st f (simdIter (a ++ b) d) = (ok st2, ⟨a.length + b.length, ⟨xs ++ ys⟩, d⟩) := by
  have ha' : a.length / w ≤ (a ++ b).length / w := Nat.div_le_div_right (by simp)
  have hb' : b.length / w ≤ (a ++ b).length / w := Nat.div_le_div_right (by simp)
  have hl : (a ++ b).length = a.length + b.length := List.length_append
  have hm : a.length % w = 0 := Nat.mod_eq_zero_of_dvd ha
  have hm2 : (a ++ b).length % w = b.length % w := by rw [hl, Nat.add_mod, hm]; simp
  have h3 : callAll f st (calls w d (a ++ b)) = ok (us ++ vs, st2) := by
    rw [C118_calls hw d a b ha, callAll_append, h1, ok_bind, h2]; rfl
  refine ⟨_, _, C10_for_each_any_closure c fuel a d st st1 f us hw (by omega) (by omega) h1,
    C10_for_each_any_closure c fuel b d st1 st2 f vs hw (by omega) (by omega) h2, ?_⟩
  rw [C10_for_each_any_closure c fuel _ d st st2 f _ hw hlen hfuel h3, hl]
  congr 3
  rw [← hl, hm2, hm, Nat.sub_zero, Nat.mod_self, unpad_zero]
  rcases List.eq_nil_or_concat vs with e | ⟨l, u, e⟩
  · have hlq := callAll_length f st1 _ h2
    rw [e] at hlq ⊢
    have hb0 : b.length % w = 0 := by
      by_cases h : b.length % w = 0
      · exact h
      · simp [calls, h] at hlq
    rw [hb0, Nat.sub_zero, Nat.mod_self, unpad_zero, unpad_zero]
    simp
  · rw [e, List.concat_eq_append, ← List.append_assoc, unpad_concat, unpad_concat, lanes_append]
    simp

/-- What `simd_for_each` leaves of a slice, with its outcome. -/
def forEachOut {σ : Type} [Packable α] (c : Cfg) (fuel : Nat) (st : σ)
    (f : FnMut σ (Vector α w) (Vector α w)) (d : Vector α w) (data : List α) : Res σ × List α :=
  ((simdForEach c fuel st f (simdIter data d)).1, (simdForEach c fuel st f (simdIter data d)).2.data.elems)

theorem forEachOut_eq [Packable α] (c : Cfg) (fuel : Nat) (data : List α) (d : Vector α w) (st : σ)
    (f : FnMut σ (Vector α w) (Vector α w)) (hw : 0 < w)
    (hlen : data.length + w < c.usize) (hfuel : data.length / w < fuel) :
    forEachOut c fuel st f d data = ((mapRun f st (calls w d data)).2,
      forEachData data 0 (mapRun f st (calls w d data)).1 (mapRun f st (calls w d data)).2) := by
  obtain ⟨p', h, -⟩ := simdForEach_run (c := c) f d hw fuel data 0 st hlen (by omega) hfuel
    (Or.inl rfl)
  rw [List.drop_zero] at h
  rw [forEachOut, simdIter, h]

/-- **C118**, `simd_for_each` with any closure: it is applied to the second part only if it did not
panic in the first, which is then left as by a pass over the first part alone. -/
theorem C118_for_each_any [Packable α] (c : Cfg) (fuel : Nat) (a b : List α) (d : Vector α w) (st : σ)
    (f : FnMut σ (Vector α w) (Vector α w)) (hw : 0 < w) (ha : w ∣ a.length)
    (hlen : (a ++ b).length + w < c.usize) (hfuel : (a ++ b).length / w < fuel) :
    forEachOut c fuel st f d (a ++ b) =
      match forEachOut c fuel st f d a with
      | (ok st', xs) => ((forEachOut c fuel st' f d b).1, xs ++ (forEachOut c fuel st' f d b).2)
      | (r, xs) => (r, xs ++ b) := by
  have ha' : a.length / w ≤ (a ++ b).length / w := Nat.div_le_div_right (by simp)
  have hb' : b.length / w ≤ (a ++ b).length / w := Nat.div_le_div_right (by simp)
  have hl : (a ++ b).length = a.length + b.length := List.length_append
  have hm : a.length % w = 0 := Nat.mod_eq_zero_of_dvd ha
  have hm2 : (a ++ b).length % w = b.length % w := by rw [hl, Nat.add_mod, hm]; simp
  have hca : (calls w d a).length * w = a.length := by
    rw [calls, List.length_append, fullWindows_length, if_pos hm, List.length_nil, Nat.add_zero]
    exact Nat.div_mul_cancel ha
  rw [forEachOut_eq c fuel _ d st f hw hlen hfuel, forEachOut_eq c fuel a d st f hw (by omega) (by omega),
    C118_calls hw d a b ha, mapRun_append]
  have hfail : ∀ us : List (Vector α w), us.length ≤ (calls w d a).length →
      splice (a ++ b) 0 (lanes us) = splice a 0 (lanes us) ++ b := by
    intro us hus
    have h1 := Nat.mul_le_mul_right w hus
    rw [splice_zero, splice_zero, List.append_assoc, List.drop_append_of_le_length (by rw [lanes_length]; omega)]
  have hle := mapRun_length_le f st (calls w d a)
  cases hr : (mapRun f st (calls w d a)).2 with
  | ok st' =>
    have hus := mapRun_length f st st' _ hr
    have hll : (lanes (mapRun f st (calls w d a)).1).length = a.length := by rw [lanes_length, hus, hca]
    simp only [forEachOut_eq c fuel b d st' f hw (by omega) (by omega)]
    generalize hvs : (mapRun f st' (calls w d b)).1 = vs
    generalize (mapRun f st (calls w d a)).1 = us at *
    have hxs : forEachData a 0 us (ok st' : Res σ) = lanes us := by
      rw [forEachData, Nat.sub_zero, hm, Nat.sub_zero, Nat.mod_self, unpad_zero]; simp
    have hbad : splice (a ++ b) 0 (lanes (us ++ vs)) = lanes us ++ splice b 0 (lanes vs) := by
      rw [splice_zero, splice_zero, lanes_append, List.length_append, hll, List.append_assoc,
        List.drop_append, List.drop_of_length_le (by omega)]
      simp
    rw [hxs]
    cases hr2 : (mapRun f st' (calls w d b)).2 with
    | ok st2 =>
      have hlv := mapRun_length f st' st2 _ hr2
      rw [hvs] at hlv
      simp only [forEachData, Nat.sub_zero, List.take_zero, List.nil_append, hm2]
      congr 1
      rcases List.eq_nil_or_concat vs with e | ⟨l, u, e⟩
      · rw [e] at hlv ⊢
        have hb0 : b.length % w = 0 := by
          by_cases h : b.length % w = 0
          · exact h
          · simp [calls, h] at hlv
        rw [hb0, Nat.sub_zero, Nat.mod_self, unpad_zero, unpad_zero]
        simp
      · rw [e, List.concat_eq_append, ← List.append_assoc, unpad_concat, unpad_concat, lanes_append]
        simp
    | _ => simp only [forEachData, hbad]
  | _ => simp only [forEachData, hfail _ hle]

-- the closure panics at the second vector, which is in the second part
example : forEachOut debug64 9 0 (fun n v => if n = 1 then panic else ok (v.map (· + 1#8), n + 1))
      #v[0#8, 0] ([1#8, 2] ++ [3, 4, 5]) = (panic, [2, 3, 3, 4, 5]) ∧
    forEachOut debug64 9 0 (fun n v => if n = 1 then panic else ok (v.map (· + 1#8), n + 1))
      #v[0#8, 0] [1#8, 2] = (ok 1, [2, 3]) ∧
    forEachOut debug64 9 1 (fun n v => if n = 1 then panic else ok (v.map (· + 1#8), n + 1))
      #v[0#8, 0] [3#8, 4, 5] = (panic, [3, 4, 5]) := by decide +kernel

/-- Cut elsewhere, the calls differ. -/
example : calls 2 #v[0#8, 0] ([1#8] ++ [2, 3]) = [#v[1, 2], #v[0, 3]] ∧
    calls 2 #v[0#8, 0] [1#8] ++ calls 2 #v[0#8, 0] [2#8, 3] = [#v[0, 1], #v[2, 3]] ∧
    calls 2 #v[0#8, 0] ([1#8, 2] ++ [3]) = [#v[1, 2]] ++ [#v[0, 3]] := by decide +kernel

end Faster
