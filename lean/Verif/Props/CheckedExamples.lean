import Verif.Props.Checked
/-
C139: the integer programs of examples/main.rs on targets without vector instructions.
-/
namespace Faster
open Res SIMDSized SIMDIterable SIMDIterator

/-- Checks of all elements. -/
theorem mapM_checked {α β : Type} {g : α → Res β} {h : α → β} {p : α → Bool}
    (hg : ∀ x, g x = if p x then Res.panic else ok (h x)) (l : List α) :
    l.mapM g = if l.any p then Res.panic else ok (l.map h) := by
  by_cases hp : l.any p
  · rw [if_pos hp]
    obtain ⟨x, hx, e⟩ := List.any_eq_true.mp hp
    refine mapM_total (fun x => ?_) l ⟨x, hx, by rw [hg, if_pos e]⟩
    rw [hg]
    split
    · exact .inr rfl
    · exact .inl ⟨_, rfl⟩
  · rw [if_neg hp]
    refine mapM_fine l fun x hx => ?_
    rw [hg, if_neg]
    intro e
    exact hp (List.any_eq_true.mpr ⟨x, hx, e⟩)

theorem overflowCheck_if {n : Nat} (c : Cfg) (k : Kind) (x : Int) (r : BitVec n) :
    overflowCheck c k x r =
      if (c.debug && !(decide (k.lo n ≤ x) && decide (x ≤ k.hi n))) then Res.panic else ok r := by
  unfold overflowCheck
  by_cases h : k.lo n ≤ x ∧ x ≤ k.hi n
  · rw [if_pos h, if_neg (by simp [h])]
  · rw [if_neg h]
    cases hc : c.debug
    · simp
    · rw [if_pos rfl, if_pos]
      rcases not_and_or.mp h with h | h <;> simp [h]

/-- **C139**, `filled_u8s` with software vectors: a debug build panics if an element is 128 or more;
otherwise the doubled elements modulo 2^8 are written, as on other targets (`C101_fill`). -/
theorem C139_example_fill (w : Nat) (c : Cfg) (fuel : Nat) (data buf : List (BitVec 8)) (hw : 0 < w)
    (hlen : buf.length + data.length + 3 * w < c.usize) (hb : data.length ≤ buf.length)
    (hfuel : data.length / w < fuel) :
    exampleFillSoft w c fuel data buf =
      if c.debug && data.any (fun x => decide (128 ≤ x.toNat)) then Res.panic
      else ok ((data.map fun x => BitVec.ofNat 8 (2 * x.toNat)) ++ buf.drop data.length) := by
  have hG : Lifts (w := w) (fun v => Soft.binop (mulInt c .u) 0#8 v (Packed.splat 2#8))
      (fun x => mulInt c .u x 2#8) := by
    have := Lifts.binop (w := w) (op := mulInt (n := 8) c .u) 0#8
      (fun a b => overflowCheck_total _ _ _ _) (Lifts.pure id) (Lifts.splat 2#8)
    simpa [Packed.splat] using this
  have hg : ∀ x : BitVec 8, mulInt c .u x 2#8 = if (c.debug && decide (128 ≤ x.toNat)) then Res.panic
      else ok (BitVec.ofNat 8 (2 * x.toNat)) := by
    intro x
    have hx := x.isLt
    rw [mulInt, overflowCheck_if]
    have e : x * 2#8 = BitVec.ofNat 8 (2 * x.toNat) := by
      apply BitVec.eq_of_toNat_eq
      simp [BitVec.toNat_mul, Nat.mul_comm]
    rw [e]
    congr 3
    simp only [Kind.value, Kind.lo, Kind.hi]
    by_cases h : 128 ≤ x.toNat
    · simp [h]; omega
    · simp [h]; omega
  have h := C139_fill c fuel data (Packed.splat 0#8 : Vector (BitVec 8) w) buf hG hw (by decide) rfl hb
    (by simp only [Packable.size]; omega) hfuel
  refine (congrArg (· >>= fun p => ok p.2) h).trans ?_
  rw [mapM_checked hg, mapM_checked hg]
  have hpad : (padLanes w (Packed.splat 0#8) data).any (fun x => c.debug && decide (128 ≤ x.toNat)) = false := by
    rw [List.any_eq_false]
    intro x hx
    have : x = 0#8 := by
      unfold padLanes at hx
      split at hx
      · simp at hx
      · obtain ⟨i, hi, e⟩ := List.getElem_of_mem (List.mem_of_mem_take hx)
        rw [← e]
        simp [Packed.splat]
    subst this
    simp
  rw [hpad]
  have hany : data.any (fun x => c.debug && decide (128 ≤ x.toNat)) =
      (c.debug && data.any (fun x => decide (128 ≤ x.toNat))) := by
    cases c.debug <;> simp
  rw [hany]
  split <;> rfl

/-- **C139**, `strided` with software vectors: a debug build panics if the sum of a pair is 2^32 or
more; otherwise the sums modulo 2^32 are returned (`C101_strided`). -/
theorem C139_example_strided (w : Nat) (c : Cfg) (fuel : Nat) (data : List (BitVec 32)) (hw : 0 < w)
    (hu : data.length + 2 * (w + 1) < c.usize) (hvec : 4 * w < c.usize)
    (hfuel : data.length / 2 / w < fuel) :
    exampleStridedSoft w c fuel data =
      if c.debug && decide (∃ i : Fin (data.length / 2),
        2 ^ 32 ≤ (data[2 * i.val]'(by omega)).toNat + (data[2 * i.val + 1]'(by omega)).toNat) then Res.panic
      else ok (List.ofFn (n := data.length / 2) fun i =>
        some (data[2 * i.val]'(by omega) + data[2 * i.val + 1]'(by omega))) := by
  have h01 : (0 : Nat) < 2 := by omega
  have h12 : (1 : Nat) < 2 := by omega
  obtain ⟨S, more, hd, h0, -⟩ := strideAt_driver c data h01 (Packed.splat 99#32 : Vector _ w) hw hu
  have hlen : (rows2 (strided 2 0 data h01) (strided 2 1 data h12)).length = data.length / 2 := by
    simp [rows2]
  have e1 : (rows2 (strided 2 0 data h01) (strided 2 1 data h12)).map Prod.fst = strided 2 0 data h01 := by
    apply List.ext_getElem <;> simp [rows2]
  have e2 : ((rows2 (strided 2 0 data h01) (strided 2 1 data h12)).map Prod.snd).map Prod.fst =
      strided 2 1 data h12 := by
    apply List.ext_getElem <;> simp [rows2]
  have e3 : (Vector.replicate w (99#32, 99#32, ())).map Prod.fst = (Packed.splat 99#32 : Vector _ w) := by
    ext i hi; simp [Packed.splat]
  have e4 : ((Vector.replicate w (99#32, 99#32, ())).map Prod.snd).map Prod.fst =
      (Packed.splat 99#32 : Vector _ w) := by
    ext i hi; simp [Packed.splat]
  have hG : Lifts (w := w) (fun v : Vector (BitVec 32 × BitVec 32 × Unit) w =>
        (fun t : Vector (BitVec 32) w × Vector (BitVec 32) w × Unit =>
          Soft.binop (addInt c .u) 0#32 t.1 t.2.1)
          (packRow (PackedStride (Slice (BitVec 32) w) (BitVec 32) w × Unit) v))
      (fun x => addInt c .u x.1 x.2.1) := by
    have := Lifts.binop (w := w) (op := addInt (n := 32) c .u) 0#32
      (fun a b => overflowCheck_total _ _ _ _) (Lifts.pure Prod.fst)
      (Lifts.pure (fun x : BitVec 32 × BitVec 32 × Unit => x.2.1))
    refine ⟨this.total, fun v r h => ?_, fun v i hi h => ?_⟩
    · have := this.lanes v r h
      simp only [ok_bind] at this
      rw [← this]
      simp only [packRow]
      congr 1
      ext i hi
      simp [LawfulRest.pack]
    · have := this.panics v i hi h
      simp only [ok_bind] at this
      rw [← this]
      simp only [packRow]
      congr 1
      ext i hi
      simp [LawfulRest.pack]
  have key := C139_zip (c := c) (S := S) (more := more)
    (r := ((strideAt (⟨data⟩ : Slice (BitVec 32) w) 2 1 (Packed.splat 99#32), ()) :
      PackedStride (Slice (BitVec 32) w) (BitVec 32) w × Unit))
    (rows := rows2 (strided 2 0 data h01) (strided 2 1 data h12))
    (dv := Vector.replicate w (99#32, 99#32, ()))
    (G := fun t : Vector (BitVec 32) w × Vector (BitVec 32) w × Unit =>
      Soft.binop (addInt c .u) 0#32 t.1 t.2.1)
    (g := fun x => addInt c .u x.1 x.2.1)
    (by rw [e1, e3]; exact hd) hw
    (by
      refine ⟨?_, trivial⟩
      rw [e2, e4]
      exact repIter_strideAt c data h12 _ hw hu)
    (by omega) fuel hG (by decide) rfl (by simp only [Packable.size]; omega) (by rwa [hlen])
  rw [h0] at key
  refine Eq.trans key ?_
  have hg : ∀ x : BitVec 32 × BitVec 32 × Unit, addInt c .u x.1 x.2.1 =
      if (c.debug && decide (2 ^ 32 ≤ x.1.toNat + x.2.1.toNat)) then Res.panic else ok (x.1 + x.2.1) := by
    intro x
    rw [addInt, overflowCheck_if]
    congr 3
    rw [decide_eq_true (show Kind.lo 32 .u ≤ Kind.value .u x.1 + Kind.value .u x.2.1 by
      simp only [Kind.lo, Kind.value]; omega), Bool.true_and, ← decide_not]
    apply decide_eq_decide.mpr
    simp only [Kind.hi, Kind.value]
    omega
  have ra : ∀ i (hi : i < (rows2 (strided 2 0 data h01) (strided 2 1 data h12)).length),
      (rows2 (strided 2 0 data h01) (strided 2 1 data h12))[i] =
        (data[2 * i]'(by omega), data[2 * i + 1]'(by omega), ()) := by
    intro i hi
    simp only [rows2, List.getElem_zipWith, strided_getElem]
    congr 3 <;> omega
  rw [mapM_checked hg, mapM_checked hg]
  have hpad : (padLanes w (Vector.replicate w (99#32, 99#32, ()))
      (rows2 (strided 2 0 data h01) (strided 2 1 data h12))).any
      (fun x => c.debug && decide (2 ^ 32 ≤ x.1.toNat + x.2.1.toNat)) = false := by
    rw [List.any_eq_false]
    intro x hx
    have : x = (99#32, 99#32, ()) := by
      unfold padLanes at hx
      split at hx
      · simp at hx
      · obtain ⟨i, hi, e⟩ := List.getElem_of_mem (List.mem_of_mem_take hx)
        rw [← e]
        simp
    subst this
    simp
  rw [hpad]
  have hany : (rows2 (strided 2 0 data h01) (strided 2 1 data h12)).any
      (fun x => c.debug && decide (2 ^ 32 ≤ x.1.toNat + x.2.1.toNat)) =
      (c.debug && decide (∃ i : Fin (data.length / 2),
        2 ^ 32 ≤ (data[2 * i.val]'(by omega)).toNat + (data[2 * i.val + 1]'(by omega)).toNat)) := by
    rw [Bool.eq_iff_iff, List.any_eq_true, Bool.and_eq_true, decide_eq_true_iff]
    constructor
    · rintro ⟨x, hx, hp⟩
      simp only [Bool.and_eq_true, decide_eq_true_iff] at hp
      obtain ⟨i, hi, rfl⟩ := List.getElem_of_mem hx
      refine ⟨hp.1, ⟨i, by omega⟩, ?_⟩
      have := hp.2
      rw [ra i hi] at this
      exact this
    · rintro ⟨hc, ⟨i, hi⟩, hp⟩
      refine ⟨(rows2 (strided 2 0 data h01) (strided 2 1 data h12))[i]'(by omega), List.getElem_mem _, ?_⟩
      simp only [Bool.and_eq_true, decide_eq_true_iff]
      refine ⟨hc, ?_⟩
      rw [ra i (by omega)]
      exact hp
  rw [hany]
  split
  · rfl
  · simp only [ok_bind, Bool.false_eq_true, if_false]
    congr 1
    apply List.ext_getElem
    · simp [rows2]
    · intro i h1 h2
      simp only [rows2, List.getElem_map, List.getElem_zipWith, strided_getElem, List.getElem_ofFn]
      congr 3 <;> omega

/-- **C139**, `lots_of_84s` with software vectors: a debug build panics if the magnitude of an element
is 15 or more; otherwise `9 * |x| - 6` modulo 2^8 is returned (`C101_abs`). -/
theorem C139_example_abs (r : AbsRow) (hr : r ∈ absRowsUnknown) (hk : r.kind = .i) (hs : r.size = 1)
    (c : Cfg) (fuel : Nat) (data : List (BitVec 8)) (hc : 64 ≤ c.usize)
    (hlen : data.length + r.width < c.usize) (hfuel : data.length / r.width < fuel) :
    exampleAbsSoft (w := r.width) (absOf false r) c fuel data =
      if c.debug && data.any (fun x => decide (15 ≤ x.toInt.natAbs)) then Res.panic
      else ok (data.map fun x => some (BitVec.ofInt 8 (9 * (x.toInt.natAbs : Int) - 6))) := by
  have hw : 0 < r.width ∧ r.width ≤ 64 := by
    have : ∀ r ∈ absRowsUnknown, 0 < r.width ∧ r.width ≤ 64 := by decide +kernel
    exact this r hr
  have habs : (absOf false r : Vector (BitVec 8) r.width → _) =
      fun v => ok (v.map fun x => BitVec.ofInt 8 (x.toInt.natAbs : Int)) := by
    have gen : ∀ {n : Nat} (hn : n = 8 * r.size) (v : Vector (BitVec n) r.width),
        ∃ o, absOf false r v = ok o ∧ IsAbs v o := by
      intro n hn v
      subst hn
      unfold absOf
      split
      · rename_i mm hm
        rw [absRowsUnknown_mm r hr] at hm; cases hm
      · exact C44_int_fallback r (.inr hr) hk v
    funext v
    obtain ⟨o, h1, h2⟩ := gen (by omega) v
    rw [h1]
    congr 1
    apply Vector.ext
    intro i hi
    have := h2 i hi
    rw [Vector.getElem_map]
    apply BitVec.eq_of_toNat_eq
    rw [BitVec.toNat_ofInt]
    have hlt := (o[i]).isLt
    split at this <;> omega
  have ht : ∀ (k : Kind) (x y : BitVec 8), (∃ z, mulInt c k x y = ok z) ∨ mulInt c k x y = Res.panic :=
    fun k x y => overflowCheck_total _ _ _ _
  have ht' : ∀ (k : Kind) (x y : BitVec 8), (∃ z, subInt c k x y = ok z) ∨ subInt c k x y = Res.panic :=
    fun k x y => overflowCheck_total _ _ _ _
  have hG := ((Lifts.pure (w := r.width) (fun x : BitVec 8 => BitVec.ofInt 8 (x.toInt.natAbs : Int))).comp
    (Lifts.binop (op := mulInt c .i) 0#8 (ht .i) (Lifts.splat 9#8) (Lifts.pure id))).comp
    ((Lifts.binop (op := subInt c .i) 0#8 (ht' .i) (Lifts.pure id) (Lifts.splat 4#8)).comp
    (Lifts.binop (op := subInt c .i) 0#8 (ht' .i) (Lifts.pure id) (Lifts.splat 2#8)))
  simp only [ok_bind, Vector.map_id, id_eq] at hG
  obtain ⟨G, hfun, hG⟩ : ∃ G, (fun _ v => do
      let a ← absOf false r v
      let m ← Soft.binop (mulInt c .i) 0#8 (Packed.splat 9#8) a
      let s ← Soft.binop (subInt c .i) 0#8 m (Packed.splat 4#8)
      let t ← Soft.binop (subInt c .i) 0#8 s (Packed.splat 2#8)
      ok (t, ()) : FnMut Unit (Vector (BitVec 8) r.width) (Vector (BitVec 8) r.width)) = useOp G ∧
      Lifts G fun x => mulInt c .i 9#8 (BitVec.ofInt 8 (x.toInt.natAbs : Int)) >>= fun m =>
        subInt c .i m 4#8 >>= fun s => subInt c .i s 2#8 := by
    refine ⟨_, ?_, hG⟩
    funext st v
    rw [habs]
    simp only [useOp, ok_bind, bind_assoc]
    rfl
  have hg : ∀ x : BitVec 8, (mulInt c .i 9#8 (BitVec.ofInt 8 (x.toInt.natAbs : Int)) >>= fun m =>
        subInt c .i m 4#8 >>= fun s => subInt c .i s 2#8) =
      if (c.debug && decide (15 ≤ x.toInt.natAbs)) then Res.panic
      else ok (BitVec.ofInt 8 (9 * (x.toInt.natAbs : Int) - 6)) := by
    intro x
    cases hd : c.debug
    · simp only [mulInt, subInt, overflowCheck_if, hd, Bool.false_and, Bool.false_eq_true, if_false, ok_bind]
      congr 1
      generalize (x.toInt.natAbs : Int) = y
      rw [show 9 * y - 6 = 9 * y + (-4 + -2) by omega, BitVec.ofInt_add, BitVec.ofInt_add, BitVec.ofInt_mul,
        BitVec.sub_eq_add_neg, BitVec.sub_eq_add_neg, BitVec.add_assoc]
      rfl
    · simp only [mulInt, subInt, overflowCheck_if, hd, Bool.true_and]
      revert x
      decide +kernel
  have hcall : ∀ vs, callAll (composeFn (useOp G) (fun _ (v : Vector (BitVec 8) r.width) => ok (v, ())))
      ((), ()) vs = callAll (useOp G) () vs >>= fun q => ok (q.1, ((), ())) := by
    intro vs
    induction vs with
    | nil => rfl
    | cons v vs ih =>
      simp only [callAll, composeFn, useOp, bind_assoc, ok_bind] at ih ⊢
      congr 1; funext u
      rw [ih]
      simp only [bind_assoc, ok_bind]
  have hdm := Nat.div_mul_le_self data.length r.width
  have h1 := C55_collect_partial c (useOp G) (fun _ (v : Vector (BitVec 8) r.width) => ok (v, ()))
    (simdIter data (Packed.splat 0#8)) () () (by omega) (by decide) (by decide) (Nat.dvd_refl _)
    (by simp [Packable.size]) fuel
  have h2 := C05_collect_any_closure c fuel data (Packed.splat 0#8 : Vector (BitVec 8) r.width) ((), ())
    (composeFn (useOp G) (fun _ (v : Vector (BitVec 8) r.width) => ok (v, ())))
    hw.1 hw.1 (by decide) rfl hlen (by rw [Nat.succ_mul]; omega) (by simp only [Packable.size]; omega) hfuel
  rw [hcall] at h2
  rw [h2] at h1
  have h3 : exampleAbsSoft (w := r.width) (absOf false r) c fuel data =
      scalarCollect c fuel (simdMap (simdMap (simdIter data (Packed.splat 0#8)) () (useOp G)) ()
        (fun _ (v : Vector (BitVec 8) r.width) => ok (v, ()))) >>= fun p => ok p.2 := by
    rw [← hfun]
    rfl
  rw [h3, h1]
  simp only [bind_assoc, ok_bind]
  have hn : (r.width - data.length % r.width) % r.width * Packable.size (BitVec 8) /
      Packable.size (BitVec 8) = (r.width - data.length % r.width) % r.width := by
    simp [Packable.size]
  rw [hn, pass_lifts hG hw.1 (Packed.splat 0#8) data fun rs => rs.map some, mapM_checked hg, mapM_checked hg]
  have hpad : (padLanes r.width (Packed.splat 0#8) data).any
      (fun x => c.debug && decide (15 ≤ x.toInt.natAbs)) = false := by
    rw [List.any_eq_false]
    intro x hx
    have : x = 0#8 := by
      unfold padLanes at hx
      split at hx
      · simp at hx
      · obtain ⟨i, hi, e⟩ := List.getElem_of_mem (List.mem_of_mem_take hx)
        rw [← e]
        simp [Packed.splat]
    subst this
    simp
  rw [hpad]
  have hany : data.any (fun x => c.debug && decide (15 ≤ x.toInt.natAbs)) =
      (c.debug && data.any (fun x => decide (15 ≤ x.toInt.natAbs))) := by
    cases c.debug <;> simp
  rw [hany]
  split
  · rfl
  · simp only [ok_bind, Bool.false_eq_true, if_false, List.map_map]
    rfl

/-- The example itself does not overflow; one element 15 does. -/
example : exampleAbsSoft (w := 4) (fun v => ok (v.map fun x => BitVec.ofInt 8 (x.toInt.natAbs : Int)))
      debug64 9 (List.replicate 5 (-10#8)) = ok (List.replicate 5 (some 84#8)) ∧
    exampleAbsSoft (w := 4) (fun v => ok (v.map fun x => BitVec.ofInt 8 (x.toInt.natAbs : Int)))
      debug64 9 [1#8, 15#8] = Res.panic ∧
    exampleAbsSoft (w := 4) (fun v => ok (v.map fun x => BitVec.ofInt 8 (x.toInt.natAbs : Int)))
      release64 9 [1#8, 15#8] = ok [some 3#8, some 129#8] := by decide +kernel

end Faster
