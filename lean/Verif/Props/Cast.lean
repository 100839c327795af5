import Verif.Lemmas.Cast
import Verif.Props.Arith
/-
Upcasts (C45), saturating downcasts (C46) and their composition (C47).
-/
namespace Faster
open Res

variable {α β : Type} {n k w w' : Nat}

/-! ### C45: upcast -/

/-- The instances of `Upcast`: the first and second half of the lanes in order; the
conversion instruction has the right register and lane sizes and sign. -/
theorem upcastRows_facts : ∀ r ∈ upcastRows, r.width = 2 * (r.width / 2) ∧ 0 < r.size ∧
    r.first = List.range (r.width / 2) ∧
    r.second = (List.range (r.width / 2)).map (· + r.width / 2) ∧
    (r.toKind = .f ∨ r.toKind = r.kind) ∧
    (r.mm = none ∨ (8 * r.size * r.width = 128 ∨ 8 * r.size * r.width = 256) ∧
      r.mm.bind Instr.ext = some ⟨8 * r.size * r.width, 8 * r.size, 16 * r.size,
        if r.toKind = .f then .float else if r.kind = .i then .sign else .zero⟩) := by
  decide +kernel

theorem upcastRowsUnknown_facts : ∀ r ∈ upcastRowsUnknown, r.width = 2 * (r.width / 2) ∧ 0 < r.size ∧
    r.first = List.range (r.width / 2) ∧
    r.second = (List.range (r.width / 2)).map (· + r.width / 2) ∧
    (r.toKind = .f ∨ r.toKind = r.kind) := by
  decide +kernel

example : upcastRows.length = 20 ∧ upcastRowsUnknown.length = 20 := by decide
example : (upcastRows.filter fun r => r.toKind ≠ .f ∧ r.mm.isSome).length = 12 := by decide

/-- The result of `upcast` for any conversion to float: all lanes converted, in
order, split over two vectors. Fallback versions. -/
theorem C45_order_fallback (r : UpRow) (hr : r ∈ upcastRows ++ upcastRowsUnknown)
    (conv : BitVec (8 * r.size) → BitVec (16 * r.size)) (v : Vector (BitVec (8 * r.size)) r.width) :
    ∃ a b : Vector (BitVec (16 * r.size)) (r.width / 2),
      upcastFallback (widen conv r.kind r.toKind) r.first r.second v = ok (a, b) ∧
      a.toList ++ b.toList = v.toList.map (widen conv r.kind r.toKind) := by
  obtain ⟨hw, h0, hf, hs⟩ : r.width = 2 * (r.width / 2) ∧ 0 < r.size ∧
      r.first = List.range (r.width / 2) ∧
      r.second = (List.range (r.width / 2)).map (· + r.width / 2) := by
    rcases List.mem_append.mp hr with hr | hr
    · obtain ⟨h1, h2, h3, h4, -⟩ := upcastRows_facts r hr; exact ⟨h1, h2, h3, h4⟩
    · obtain ⟨h1, h2, h3, h4, -⟩ := upcastRowsUnknown_facts r hr; exact ⟨h1, h2, h3, h4⟩
  exact ⟨_, _, upcastFallback_ok _ hf hs hw v, halves_toList _ v hw⟩

/-- The same for the optimized versions. -/
theorem C45_order_optimized (r : UpRow) (hr : r ∈ upcastRows) (mm : Instr) (hm : r.mm = some mm)
    (conv : BitVec (8 * r.size) → BitVec (16 * r.size)) (v : Vector (BitVec (8 * r.size)) r.width) :
    ∃ a b : Vector (BitVec (16 * r.size)) (r.width / 2),
      upcastInstr conv mm v = ok (a, b) ∧
      a.toList ++ b.toList = v.toList.map (widen conv r.kind r.toKind) := by
  obtain ⟨hw, h0, -, -, -, h⟩ := upcastRows_facts r hr
  rcases h with h | ⟨ht, h⟩
  · rw [hm] at h; exact absurd h (by simp)
  rw [hm] at h
  replace h : mm.ext = _ := h
  have hop : ∀ x, ExtOp.eval conv (if r.toKind = .f then .float else if r.kind = .i then .sign else .zero) x =
      widen conv r.kind r.toKind x := by
    intro x
    unfold widen
    split
    · rfl
    · split <;> rfl
  generalize (if r.toKind = .f then ExtOp.float else if r.kind = .i then .sign else .zero) = op at h hop
  have hn : 8 * r.size * r.width = 2 * (8 * r.size * (r.width / 2)) := by
    rw [Nat.mul_left_comm, ← hw]
  have hn' : 16 * r.size * (r.width / 2) = 8 * r.size * r.width := by
    rw [hn, ← Nat.mul_assoc, ← Nat.mul_assoc]
  refine ⟨Vector.ofFn fun i => widen conv r.kind r.toKind (v[i.val]'(by omega)),
    Vector.ofFn fun i => widen conv r.kind r.toKind (v[i.val + r.width / 2]'(by omega)), ?_,
    halves_toList _ v hw⟩
  simp only [upcastInstr, h, hn', and_self, if_true]
  rcases ht with ht | ht
  · rw [if_pos ht]
    congr 1
    apply Prod.ext
    · apply Vector.ext
      intro i hi
      rw [(upcast128_eq _ v (by omega) hw hi).1, hop]
      simp
    · apply Vector.ext
      intro i hi
      rw [(upcast128_eq _ v (by omega) hw hi).2, hop]
      simp
  · rw [if_neg (by omega)]
    congr 1
    apply Prod.ext
    · apply Vector.ext
      intro i hi
      rw [(upcast256_eq _ v (by omega) hw hi).1, hop]
      simp
    · apply Vector.ext
      intro i hi
      rw [(upcast256_eq _ v (by omega) hw hi).2, hop]
      simp

/-- Sign or zero extension keeps the number. -/
theorem num_widen (conv : BitVec n → BitVec k) (kind : Kind) (hk : kind ≠ .f) (hnk : n ≤ k)
    (x : BitVec n) : num kind.signed (widen conv kind kind x) = num kind.signed x := by
  unfold widen
  rw [if_neg hk]
  cases kind
  · simp only [num, Kind.signed, reduceCtorEq, if_false, Bool.false_eq_true]
    rw [BitVec.toNat_setWidth_of_le hnk]
  · simp only [num, Kind.signed, if_true]
    exact BitVec.toInt_signExtend_of_le hnk
  · exact absurd rfl hk

/-- Specification of `upcast`: the lanes of the two results one after the other
denote the same numbers as the lanes of the argument. -/
def IsUpcast (signed : Bool) (v : Vector (BitVec n) w) (a b : Vector (BitVec k) w') : Prop :=
  (a.toList ++ b.toList).map (num signed) = v.toList.map (num signed)

/-- C45: the fallbacks of all integer upcasts keep every value, in order, on
every target. -/
theorem C45_fallback (r : UpRow) (hr : r ∈ upcastRows ++ upcastRowsUnknown) (hk : r.toKind ≠ .f)
    (conv : BitVec (8 * r.size) → BitVec (16 * r.size)) (v : Vector (BitVec (8 * r.size)) r.width) :
    ∃ a b : Vector (BitVec (16 * r.size)) (r.width / 2),
      upcastFallback (widen conv r.kind r.toKind) r.first r.second v = ok (a, b) ∧
      IsUpcast r.kind.signed v a b := by
  have hkk : r.toKind = r.kind := by
    rcases List.mem_append.mp hr with hr | hr
    · exact (upcastRows_facts r hr).2.2.2.2.1.resolve_left hk
    · exact (upcastRowsUnknown_facts r hr).2.2.2.2.resolve_left hk
  obtain ⟨a, b, h1, h2⟩ := C45_order_fallback r hr conv v
  refine ⟨a, b, h1, ?_⟩
  unfold IsUpcast
  rw [h2, List.map_map]
  congr 1
  funext x
  simp only [Function.comp]
  rw [hkk] at hk ⊢
  exact num_widen conv r.kind hk (by omega) x

/-- C45: the optimized versions of all integer upcasts keep every value, in order. -/
theorem C45_optimized (r : UpRow) (hr : r ∈ upcastRows) (hk : r.toKind ≠ .f) (mm : Instr)
    (hm : r.mm = some mm) (conv : BitVec (8 * r.size) → BitVec (16 * r.size))
    (v : Vector (BitVec (8 * r.size)) r.width) :
    ∃ a b : Vector (BitVec (16 * r.size)) (r.width / 2),
      upcastInstr conv mm v = ok (a, b) ∧ IsUpcast r.kind.signed v a b := by
  have hkk := (upcastRows_facts r hr).2.2.2.2.1.resolve_left hk
  obtain ⟨a, b, h1, h2⟩ := C45_order_optimized r hr mm hm conv v
  refine ⟨a, b, h1, ?_⟩
  unfold IsUpcast
  rw [h2, List.map_map]
  congr 1
  funext x
  simp only [Function.comp]
  rw [hkk] at hk ⊢
  exact num_widen conv r.kind hk (by omega) x

/-- Non-vacuity: values of both signs. -/
example : IsUpcast true #v[1#8, -2#8] #v[1#16] #v[-2#16] ∧ IsUpcast false #v[1#8, 254#8] #v[1#16] #v[254#16] := by
  unfold IsUpcast; decide +kernel

/-! ### C46: saturating downcast -/

/-- Specification of `saturating_downcast`: the lanes of `a`, then the lanes of `b`,
each replaced by the nearest number of the narrower type. -/
def IsDowncast (signed : Bool) (a b : Vector (BitVec n) w) (o : Vector (BitVec k) w') : Prop :=
  o.toList.map (num signed) = (a.toList ++ b.toList).map fun x => nearest signed k (num signed x)

instance (signed : Bool) (a b : Vector (BitVec n) w) (o : Vector (BitVec k) w') :
    Decidable (IsDowncast signed a b o) := by unfold IsDowncast; infer_instance

/-- The instances of `Downcast`. All integer fallbacks but those from u64 have the
right limits; the pack instructions have the right sizes and result signedness. -/
theorem downcastRows_facts : ∀ r ∈ downcastRows ++ downcastRowsUnknown, 0 < r.size ∧ r.toKind = r.kind ∧
    (r.kind = .f ∨ r.kind = .u ∧ r.size = 4 ∨ r.lanes = downLanes r.kind (8 * r.size) r.width) := by
  decide +kernel

theorem downcastRows_pack : ∀ r ∈ downcastRows, r.mm = none ∨
    (16 * r.size * r.width = 128 ∨ 16 * r.size * r.width = 256) ∧ r.kind ≠ .f ∧
    r.mm.bind Instr.pack = some ⟨16 * r.size * r.width, 16 * r.size, 8 * r.size,
      if r.kind = .i then .ss else .us⟩ := by
  decide +kernel

example : downcastRows.length = 14 ∧ downcastRowsUnknown.length = 14 := by decide
example : (downcastRows.filter fun r => r.mm.isSome ∧ r.kind = .i).length = 4 ∧
    (downcastRows.filter fun r => r.mm.isSome ∧ r.kind = .u).length = 4 := by decide

theorem isDowncast_of (kind : Kind) (h0 : 0 < k) (a b : Vector (BitVec n) w) (o : Vector (BitVec k) w')
    (h : o.toList = (a.toList ++ b.toList).map fun x => BitVec.ofInt k (kind.clamp k (kind.value x))) :
    IsDowncast kind.signed a b o := by
  unfold IsDowncast
  rw [h, List.map_map]
  congr 1
  funext x
  simp only [Function.comp]
  rw [num_eq, num_eq, nearest_eq, Kind.value_ofInt _ h0 (kind.clamp_bounds h0 _)]

/-- C46: the fallback of every integer downcast except u64 → u32 clamps every lane,
on every target. -/
theorem C46_fallback_partial (r : DownRow) (hr : r ∈ downcastRows ++ downcastRowsUnknown)
    (hk : r.kind ≠ .f) (h64 : ¬ (r.kind = .u ∧ r.size = 4))
    (a b : Vector (BitVec (16 * r.size)) r.width) :
    ∃ o : Vector (BitVec (8 * r.size)) (2 * r.width),
      downcastFallback r.kind r.lanes a b = ok o ∧ IsDowncast r.kind.signed a b o := by
  obtain ⟨h0, -, h⟩ := downcastRows_facts r hr
  have hl := (h.resolve_left hk).resolve_left h64
  obtain ⟨o, h1, h2⟩ := downcastFallback_ok hk (by omega) (by omega) hl rfl a b
  exact ⟨o, h1, isDowncast_of _ (by omega) a b o h2⟩

/-- Limits used by the u64 → u32 fallbacks: 2^32-1 in some lanes, 2^31-1 in others. -/
theorem downcast_u64_facts : ∀ r ∈ downcastRows ++ downcastRowsUnknown, r.kind = .u → r.size = 4 →
    r.lanes.length = 2 * r.width ∧
    (∀ l ∈ r.lanes, l.idx < r.width ∧ (l.top = 2 ^ 32 - 1 ∨ l.top = 2 ^ 31 - 1)) ∧
    (∃ l ∈ r.lanes, l.top = 2 ^ 31 - 1) ∧
    (∀ j, j < 2 * r.width → (r.lanes.map DownLane.self)[j]? = some (decide (j < r.width)) ∧
      (r.lanes.map DownLane.idx)[j]? = some (j % r.width)) := by
  decide +kernel

/-- C46: exact result of the u64 → u32 downcasts: lane `j` is the smaller of the
source lane and the limit in the table. -/
theorem C46_u64 (r : DownRow) (hr : r ∈ downcastRows ++ downcastRowsUnknown) (hk : r.kind = .u)
    (h4 : r.size = 4) (a b : Vector (BitVec 64) r.width) :
    ∃ o : Vector (BitVec 32) (2 * r.width), downcastFallback r.kind r.lanes a b = ok o ∧
      ∀ j (hj : j < 2 * r.width), ∃ l ∈ r.lanes[j]?, ∃ h : j % r.width < r.width,
        (l.top = 2 ^ 32 - 1 ∨ l.top = 2 ^ 31 - 1) ∧
        (o[j].toNat : Int) = min (((if j < r.width then a else b)[j % r.width]).toNat : Int) l.top := by
  obtain ⟨hlen, hl, -, hpos⟩ := downcast_u64_facts r hr hk h4
  obtain ⟨o, h1, h2⟩ := downcastFallback_lanes (k := 32) r.kind r.lanes a b hlen (fun l h => (hl l h).1)
  refine ⟨o, h1, fun j hj => ?_⟩
  have hjl : j < r.lanes.length := by omega
  have hm : j % r.width < r.width := Nat.mod_lt _ (by omega)
  refine ⟨r.lanes[j], by simp [hjl], hm, (hl _ (List.getElem_mem _)).2, ?_⟩
  have hp := hpos j hj
  simp only [List.getElem?_map, List.getElem?_eq_getElem hjl, Option.map_some, Option.some.injEq] at hp
  rw [h2 j hj]
  have htop := (hl _ (List.getElem_mem hjl)).2
  have hsrc : ((if (r.lanes[j]).self then a else b)[(r.lanes[j]).idx]'(hl _ (List.getElem_mem _)).1) =
      (if j < r.width then a else b)[j % r.width] := by
    rw [getElem_idx _ _ hp.2]
    congr 1
    rw [hp.1]
    simp
  rw [hsrc]
  generalize (if j < r.width then a else b)[j % r.width] = x
  simp only [narrowScalar, hk, reduceCtorEq, if_false, Kind.value]
  have hb := Kind.value_ofInt (n := 32) .u (by omega) (x := min (x.toNat : Int) (r.lanes[j]).top)
    (by simp only [Kind.lo, Kind.hi]; omega)
  exact hb

/-- C46 fails for u64 → u32 exactly in the lanes limited to 2^31-1, for every larger
value. -/
theorem C46_u64_iff (r : DownRow) (hr : r ∈ downcastRows ++ downcastRowsUnknown) (hk : r.kind = .u)
    (h4 : r.size = 4) (a b : Vector (BitVec 64) r.width) :
    ∃ o : Vector (BitVec 32) (2 * r.width), downcastFallback r.kind r.lanes a b = ok o ∧
      ∀ j (hj : j < 2 * r.width), ∃ l ∈ r.lanes[j]?, ∃ h : j % r.width < r.width,
        ((o[j].toNat : Int) = nearest false 32 (((if j < r.width then a else b)[j % r.width]).toNat : Int) ↔
          l.top = 2 ^ 32 - 1 ∨ ((if j < r.width then a else b)[j % r.width]).toNat < 2 ^ 31) := by
  obtain ⟨o, h1, h2⟩ := C46_u64 r hr hk h4 a b
  refine ⟨o, h1, fun j hj => ?_⟩
  obtain ⟨l, hl, h, ht, he⟩ := h2 j hj
  refine ⟨l, hl, h, ?_⟩
  rw [he]
  simp only [nearest, Bool.false_eq_true, if_false]
  generalize ((if j < r.width then a else b)[j % r.width]).toNat = x
  omega

/-- C46: the 128-bit signed packs clamp every lane. -/
theorem C46_packs128_partial (r : DownRow) (hr : r ∈ downcastRows) (mm : Instr) (hm : r.mm = some mm)
    (h128 : 16 * r.size * r.width = 128) (hk : r.kind = .i) (a b : Vector (BitVec (16 * r.size)) r.width) :
    ∃ o : Vector (BitVec (8 * r.size)) (2 * r.width),
      downcastInstr mm a b = ok o ∧ IsDowncast true a b o := by
  have h0 := (downcastRows_facts r (List.mem_append_left _ hr)).1
  have h := downcastRows_pack r hr
  rw [hm] at h
  obtain ⟨-, -, h⟩ := h.resolve_left (by simp)
  replace h : mm.pack = _ := h
  rw [if_pos hk] at h
  have hw : 128 / (16 * r.size) = r.width := by
    rw [← h128, Nat.mul_div_cancel_left _ (by omega)]
  have ht : 8 * r.size * (2 * r.width) = 16 * r.size * r.width := by
    rw [Nat.mul_left_comm, ← Nat.mul_assoc, ← Nat.mul_assoc]
  refine ⟨X86.pack (128 / (16 * r.size)) PackOp.ss.eval a b, by
    simp only [downcastInstr, h, ht, and_self, if_true], ?_⟩
  refine isDowncast_of .i (by omega) a b _ ?_
  rw [hw, pack128 _ a b rfl]
  congr 1
  funext x
  simp only [PackOp.eval, X86.narrowSS, satS_eq]
  rfl

/-- The unsigned packs read their operands as signed: a lane of 2^(n-1) or more
becomes 0 instead of the maximum. -/
theorem narrowUS_num (h0 : 0 < k) (x : BitVec n) :
    num false (X86.narrowUS k x) = if 2 * x.toNat < 2 ^ n then nearest false k x.toNat else 0 := by
  have hp : (0 : Int) < 2 ^ k := Int.pow_pos (by omega)
  rw [X86.narrowUS, satU_eq]
  show num Kind.u.signed _ = _
  rw [num_eq, Kind.value_ofInt _ h0 (Kind.u.clamp_bounds h0 _), BitVec.toInt_eq_toNat_cond]
  have := x.isLt
  unfold Kind.clamp nearest
  simp only [Kind.lo, Kind.hi, Bool.false_eq_true, if_false]
  have hc : ((2 ^ n : Nat) : Int) = 2 ^ n := by norm_cast
  split
  · rfl
  · omega

/-- C46: the 128-bit unsigned packs are right if and only if no lane has its top
bit set. -/
theorem C46_packus128_partial (r : DownRow) (hr : r ∈ downcastRows) (mm : Instr) (hm : r.mm = some mm)
    (h128 : 16 * r.size * r.width = 128) (hk : r.kind = .u) (a b : Vector (BitVec (16 * r.size)) r.width) :
    ∃ o : Vector (BitVec (8 * r.size)) (2 * r.width), downcastInstr mm a b = ok o ∧
      (IsDowncast false a b o ↔ ∀ x ∈ a.toList ++ b.toList, x.msb = false) := by
  have h0 := (downcastRows_facts r (List.mem_append_left _ hr)).1
  have h := downcastRows_pack r hr
  rw [hm] at h
  obtain ⟨-, -, h⟩ := h.resolve_left (by simp)
  replace h : mm.pack = _ := h
  rw [if_neg (by simp [hk])] at h
  have hw : 128 / (16 * r.size) = r.width := by
    rw [← h128, Nat.mul_div_cancel_left _ (by omega)]
  have ht : 8 * r.size * (2 * r.width) = 16 * r.size * r.width := by
    rw [Nat.mul_left_comm, ← Nat.mul_assoc, ← Nat.mul_assoc]
  refine ⟨X86.pack (128 / (16 * r.size)) PackOp.us.eval a b, by
    simp only [downcastInstr, h, ht, and_self, if_true], ?_⟩
  unfold IsDowncast
  rw [hw, pack128 _ a b rfl, List.map_map, List.map_inj_left]
  refine forall_congr' fun x => forall_congr' fun _ => ?_
  simp only [Function.comp, PackOp.eval]
  rw [narrowUS_num (by omega), BitVec.msb_eq_false_iff_two_mul_lt]
  have hp : (2 : Int) ^ 8 ≤ 2 ^ (8 * r.size) := by
    have : 2 ^ 8 ≤ 2 ^ (8 * r.size) := Nat.pow_le_pow_right (by omega) (by omega)
    exact_mod_cast this
  have hx := x.isLt
  have h2 : 2 ^ 16 ≤ 2 ^ (16 * r.size) := Nat.pow_le_pow_right (by omega) (by omega)
  simp only [num, Bool.false_eq_true, if_false]
  split
  · rename_i h; simp [h]
  · rename_i h
    simp only [h, iff_false]
    unfold nearest
    simp only [Bool.false_eq_true, if_false]
    omega

/-- C46 fails for the 256-bit packs: the result holds the low half of `a`, the low
half of `b`, the high half of `a` and the high half of `b`. -/
theorem C46_pack256 (r : DownRow) (hr : r ∈ downcastRows) (mm : Instr) (hm : r.mm = some mm)
    (h256 : 16 * r.size * r.width = 256) (a b : Vector (BitVec (16 * r.size)) r.width) :
    ∃ o : Vector (BitVec (8 * r.size)) (2 * r.width), downcastInstr mm a b = ok o ∧
      o.toList = (a.toList.take (r.width / 2) ++ b.toList.take (r.width / 2) ++
          (a.toList.drop (r.width / 2) ++ b.toList.drop (r.width / 2))).map
        (if r.kind = .i then X86.narrowSS (8 * r.size) else X86.narrowUS (8 * r.size)) := by
  have h0 := (downcastRows_facts r (List.mem_append_left _ hr)).1
  have h := downcastRows_pack r hr
  rw [hm] at h
  obtain ⟨-, -, h⟩ := h.resolve_left (by simp)
  replace h : mm.pack = _ := h
  have hw : r.width = 2 * (r.width / 2) ∧ 128 / (16 * r.size) = r.width / 2 := by
    have hs : 0 < 16 * r.size := by omega
    have h1 : r.width = 256 / (16 * r.size) := by rw [← h256, Nat.mul_div_cancel_left _ hs]
    revert hr
    clear h a b
    intro hr
    have : ∀ r ∈ downcastRows, r.width = 2 * (r.width / 2) ∧
        (16 * r.size * r.width = 256 → 128 / (16 * r.size) = r.width / 2) := by decide +kernel
    exact ⟨(this r hr).1, (this r hr).2 h256⟩
  have ht : 8 * r.size * (2 * r.width) = 16 * r.size * r.width := by
    rw [Nat.mul_left_comm, ← Nat.mul_assoc, ← Nat.mul_assoc]
  refine ⟨X86.pack (128 / (16 * r.size)) (PackOp.eval (if r.kind = .i then .ss else .us)) a b, by
    simp only [downcastInstr, h, ht, and_self, if_true], ?_⟩
  rw [hw.2, pack256 _ a b hw.1 rfl]
  split <;> rfl

/-- C46: so the 256-bit signed packs are right if and only if the second half of `a`
and the first half of `b` clamp to the same values. -/
theorem C46_packs256_iff (r : DownRow) (hr : r ∈ downcastRows) (mm : Instr) (hm : r.mm = some mm)
    (h256 : 16 * r.size * r.width = 256) (hk : r.kind = .i)
    (a b : Vector (BitVec (16 * r.size)) r.width) :
    ∃ o : Vector (BitVec (8 * r.size)) (2 * r.width), downcastInstr mm a b = ok o ∧
      (IsDowncast true a b o ↔
        (a.toList.drop (r.width / 2)).map (fun x => nearest true (8 * r.size) (num true x)) =
          (b.toList.take (r.width / 2)).map (fun x => nearest true (8 * r.size) (num true x))) := by
  have h0 := (downcastRows_facts r (List.mem_append_left _ hr)).1
  obtain ⟨o, h1, h2⟩ := C46_pack256 r hr mm hm h256 a b
  refine ⟨o, h1, ?_⟩
  have hf : (fun x : BitVec (16 * r.size) => num true (X86.narrowSS (8 * r.size) x)) =
      fun x => nearest true (8 * r.size) (num true x) := by
    funext x
    rw [X86.narrowSS, satS_eq]
    show num Kind.i.signed _ = nearest Kind.i.signed _ _
    rw [num_eq, nearest_eq, Kind.value_ofInt _ (by omega) (Kind.i.clamp_bounds (by omega) _)]
    rfl
  have hw : r.width = 2 * (r.width / 2) := by
    have : ∀ r ∈ downcastRows, r.width = 2 * (r.width / 2) := by decide +kernel
    exact this r hr
  unfold IsDowncast
  rw [h2, if_pos hk, List.map_map]
  simp only [Function.comp_def]
  rw [hf]
  generalize (fun x : BitVec (16 * r.size) => nearest true (8 * r.size) (num true x)) = f
  conv => lhs; rhs; rw [← List.take_append_drop (r.width / 2) a.toList,
    ← List.take_append_drop (r.width / 2) b.toList]
  simp only [List.map_append, List.append_assoc]
  rw [List.append_cancel_left_eq, ← List.append_assoc, ← List.append_assoc, List.append_cancel_right_eq]
  constructor
  · intro h
    have := List.append_inj_left h (by simp; omega)
    exact this.symm
  · intro h
    rw [h]

/-- C46 is false: i32x8 → i16x16 with AVX2 puts the first half of the second
argument before the second half of the first; u32x4 → u16x8 with SSE4.1 turns 2^31
into 0; u64x2 → u32x4 turns 2^32-1 into 2^31-1 in its second lane. -/
theorem C46_false :
    (∃ r ∈ downcastRows, ∃ mm, r.mm = some mm ∧ r.vec = "i32x8" ∧
      ∃ o : Vector (BitVec 16) 16, downcastInstr mm (Vector.replicate 8 1#32) (Vector.replicate 8 2#32) = ok o ∧
        ¬ IsDowncast true (Vector.replicate 8 1#32) (Vector.replicate 8 2#32) o) ∧
    (∃ r ∈ downcastRows, ∃ mm, r.mm = some mm ∧ r.vec = "u32x4" ∧
      ∃ o : Vector (BitVec 16) 8, downcastInstr mm (Vector.replicate 4 0x80000000#32) (Vector.replicate 4 0#32) = ok o ∧
        ¬ IsDowncast false (Vector.replicate 4 0x80000000#32) (Vector.replicate 4 0#32) o) ∧
    (∃ r ∈ downcastRows, r.vec = "u64x2" ∧
      ∃ o : Vector (BitVec 32) 4, downcastFallback r.kind r.lanes #v[0#64, 0xFFFFFFFF#64] #v[0#64, 0#64] = ok o ∧
        ¬ IsDowncast false #v[0#64, 0xFFFFFFFF#64] #v[0#64, 0#64] o) := by
  refine ⟨?_, ?_, ?_⟩
  · refine ⟨downcastRows[7], List.getElem_mem _, .mm256_packs_epi32, rfl, rfl,
      #v[1, 1, 1, 1, 2, 2, 2, 2, 1, 1, 1, 1, 2, 2, 2, 2], ?_, ?_⟩ <;> decide +kernel
  · refine ⟨downcastRows[5], List.getElem_mem _, .mm_packus_epi32, rfl, rfl, Vector.replicate 8 0#16, ?_, ?_⟩ <;>
      decide +kernel
  · refine ⟨downcastRows[2], List.getElem_mem _, rfl, #v[0#32, 0x7FFFFFFF#32, 0#32, 0#32], ?_, ?_⟩ <;>
      decide +kernel

/-! ### C47: downcast after upcast -/

/-- An upcast and the downcast back: sizes agree. -/
theorem cast_pairs : ∀ ru ∈ upcastRows ++ upcastRowsUnknown, ∀ rd ∈ downcastRows ++ downcastRowsUnknown,
    ru.to = rd.vec → rd.to = ru.vec → rd.size = ru.size ∧ rd.width = ru.width / 2 ∧
      ru.kind = rd.kind ∧ ru.toKind = rd.kind := by
  decide +kernel

/-- Every integer downcast has an upcast to undo. -/
example : ∀ rd ∈ downcastRows, ∃ ru ∈ upcastRows, ru.to = rd.vec ∧ rd.to = ru.vec := by decide +kernel

/-- Clamping the widened value gives the value back. -/
theorem clamp_widen (conv : BitVec n → BitVec k) (kind : Kind) (hk : kind ≠ .f) (hnk : n ≤ k)
    (h0 : 0 < n) (x : BitVec n) :
    BitVec.ofInt n (kind.clamp n (kind.value (widen conv kind kind x))) = x := by
  have h := num_widen conv kind hk hnk x
  rw [num_eq, num_eq] at h
  have hb := kind.value_bounds h0 x
  rw [h, show kind.clamp n (kind.value x) = kind.value x by unfold Kind.clamp; omega, kind.ofInt_value]

/-- C47: any version of `upcast` followed by the fallback of `saturating_downcast`
returns the argument, for all integer types but u32. By `C45_order_fallback` and
`C45_order_optimized`, `lo` and `hi` can be the result of either version. -/
theorem C47_fallback_partial (ru : UpRow) (hu : ru ∈ upcastRows ++ upcastRowsUnknown) (rd : DownRow)
    (hd : rd ∈ downcastRows ++ downcastRowsUnknown) (hp : ru.to = rd.vec ∧ rd.to = ru.vec)
    (hk : rd.kind ≠ .f) (h32 : ¬ (rd.kind = .u ∧ rd.size = 4))
    (conv : BitVec (8 * ru.size) → BitVec (16 * ru.size)) (v : Vector (BitVec (8 * ru.size)) ru.width)
    (lo hi : Vector (BitVec (16 * ru.size)) (ru.width / 2))
    (hv : lo.toList ++ hi.toList = v.toList.map (widen conv ru.kind ru.toKind)) :
    downcastFallback rd.kind rd.lanes lo hi = ok v := by
  obtain ⟨hs, hw, hk1, hk2⟩ := cast_pairs ru hu rd hd hp.1 hp.2
  obtain ⟨h0, -, h⟩ := downcastRows_facts rd hd
  have hl := (h.resolve_left hk).resolve_left h32
  rw [hs, hw] at hl
  have hwid : ru.width = 2 * (ru.width / 2) := by
    rcases List.mem_append.mp hu with hu | hu
    · exact (upcastRows_facts ru hu).1
    · exact (upcastRowsUnknown_facts ru hu).1
  obtain ⟨o, h1, h2⟩ := downcastFallback_ok hk (by omega) (by omega) hl hwid lo hi
  rw [h1]
  congr 1
  apply Vector.toList_inj.mp
  rw [h2, hv, List.map_map, hk1, hk2]
  simp only [Function.comp_def]
  conv => rhs; rw [← List.map_id v.toList]
  congr 1
  funext x
  exact clamp_widen conv rd.kind hk (by omega) (by omega) x

/-- A pack instruction of the right kind undoes the widening of a lane. -/
theorem pack_widen {m : Nat} (conv : BitVec (8 * m) → BitVec (16 * m)) (kind : Kind) (hk : kind ≠ .f)
    (h0 : 0 < m) (x : BitVec (8 * m)) :
    PackOp.eval (if kind = .i then .ss else .us) (widen conv kind kind x) = x := by
  have hx := clamp_widen conv kind hk (show 8 * m ≤ 16 * m by omega) (by omega) x
  cases kind
  · rw [if_neg (by simp)]
    have hlt : 2 * (widen conv Kind.u Kind.u x).toNat < 2 ^ (16 * m) := by
      have h1 : (widen conv Kind.u Kind.u x).toNat = x.toNat := by
        simp only [widen, reduceCtorEq, if_false]
        exact BitVec.toNat_setWidth_of_le (by omega)
      have h2 : 2 ^ (8 * m + 1) ≤ 2 ^ (16 * m) := Nat.pow_le_pow_right (by omega) (by omega)
      have := x.isLt
      rw [Nat.pow_succ] at h2
      omega
    simp only [PackOp.eval, X86.narrowUS, satU_eq]
    simp only [Kind.value] at hx
    rw [BitVec.toInt_eq_toNat_of_lt hlt, hx]
  · rw [if_pos rfl]
    simp only [PackOp.eval, X86.narrowSS, satS_eq]
    exact hx
  · exact absurd rfl hk

/-- C47: any version of `upcast` followed by a 128-bit pack returns the argument. -/
theorem C47_pack128_partial (ru : UpRow) (hu : ru ∈ upcastRows) (rd : DownRow) (hd : rd ∈ downcastRows)
    (hp : ru.to = rd.vec ∧ rd.to = ru.vec) (mm : Instr) (hm : rd.mm = some mm)
    (h128 : 16 * rd.size * rd.width = 128)
    (conv : BitVec (8 * ru.size) → BitVec (16 * ru.size)) (v : Vector (BitVec (8 * ru.size)) ru.width)
    (lo hi : Vector (BitVec (16 * ru.size)) (ru.width / 2))
    (hv : lo.toList ++ hi.toList = v.toList.map (widen conv ru.kind ru.toKind)) :
    downcastInstr mm lo hi = ok v := by
  obtain ⟨hs, hw, hk1, hk2⟩ := cast_pairs ru (List.mem_append_left _ hu) rd (List.mem_append_left _ hd) hp.1 hp.2
  have h0 := (downcastRows_facts rd (List.mem_append_left _ hd)).1
  have hwid := (upcastRows_facts ru hu).1
  have h := downcastRows_pack rd hd
  rw [hm] at h
  obtain ⟨-, hk, h⟩ := h.resolve_left (by simp)
  replace h : mm.pack = _ := h
  rw [hs, hw] at h h128
  have hww : 128 / (16 * ru.size) = ru.width / 2 := by
    rw [← h128, Nat.mul_div_cancel_left _ (by omega)]
  have ht : 8 * ru.size * ru.width = 16 * ru.size * (ru.width / 2) := by
    conv => lhs; rw [hwid, Nat.mul_left_comm]
    rw [← Nat.mul_assoc, ← Nat.mul_assoc]
  simp only [downcastInstr, h, ht, and_self, if_true]
  congr 1
  apply Vector.toList_inj.mp
  rw [hww, pack128 _ lo hi hwid, hv, List.map_map, hk1, hk2]
  simp only [Function.comp_def]
  conv => rhs; rw [← List.map_id v.toList]
  congr 1
  funext x
  exact pack_widen conv rd.kind hk (by omega) x

/-- C47: what a 256-bit pack makes of an upcast vector: its four quarters in the
order 0, 2, 1, 3. -/
theorem C47_pack256 (ru : UpRow) (hu : ru ∈ upcastRows) (rd : DownRow) (hd : rd ∈ downcastRows)
    (hp : ru.to = rd.vec ∧ rd.to = ru.vec) (mm : Instr) (hm : rd.mm = some mm)
    (h256 : 16 * rd.size * rd.width = 256)
    (conv : BitVec (8 * ru.size) → BitVec (16 * ru.size)) (v : Vector (BitVec (8 * ru.size)) ru.width)
    (lo hi : Vector (BitVec (16 * ru.size)) (ru.width / 2))
    (hv : lo.toList ++ hi.toList = v.toList.map (widen conv ru.kind ru.toKind)) :
    ∃ o : Vector (BitVec (8 * ru.size)) ru.width, downcastInstr mm lo hi = ok o ∧
      o.toList = v.toList.take (ru.width / 4) ++
        (v.toList.drop (2 * (ru.width / 4))).take (ru.width / 4) ++
        ((v.toList.drop (ru.width / 4)).take (ru.width / 4) ++
         v.toList.drop (3 * (ru.width / 4))) := by
  obtain ⟨hs, hw, hk1, hk2⟩ := cast_pairs ru (List.mem_append_left _ hu) rd (List.mem_append_left _ hd) hp.1 hp.2
  have h0 := (downcastRows_facts rd (List.mem_append_left _ hd)).1
  have hwid := (upcastRows_facts ru hu).1
  have h := downcastRows_pack rd hd
  rw [hm] at h
  obtain ⟨-, hk, h⟩ := h.resolve_left (by simp)
  replace h : mm.pack = _ := h
  rw [hs, hw] at h h256
  have hq : ru.width / 2 = 2 * (ru.width / 4) ∧ 128 / (16 * ru.size) = ru.width / 4 := by
    have : ∀ r ∈ upcastRows, 16 * r.size * (r.width / 2) = 256 →
        r.width / 2 = 2 * (r.width / 4) ∧ 128 / (16 * r.size) = r.width / 4 := by decide +kernel
    exact this ru hu h256
  have ht : 8 * ru.size * ru.width = 16 * ru.size * (ru.width / 2) := by
    conv => lhs; rw [hwid, Nat.mul_left_comm]
    rw [← Nat.mul_assoc, ← Nat.mul_assoc]
  refine ⟨X86.pack (128 / (16 * ru.size)) (PackOp.eval (if rd.kind = .i then .ss else .us)) lo hi, by
    simp only [downcastInstr, h, ht, and_self, if_true], ?_⟩
  rw [hq.2, pack256 _ lo hi hq.1 hwid]
  have hlo : lo.toList = (v.toList.map (widen conv ru.kind ru.toKind)).take (ru.width / 2) := by
    rw [← hv, List.take_left' (by simp)]
  have hhi : hi.toList = (v.toList.map (widen conv ru.kind ru.toKind)).drop (ru.width / 2) := by
    rw [← hv, List.drop_left' (by simp)]
  have hid : ((fun x => PackOp.eval (if rd.kind = .i then .ss else .us) x) ∘ widen conv ru.kind ru.toKind) =
      (id : BitVec (8 * ru.size) → BitVec (8 * ru.size)) := by
    funext x
    rw [hk1, hk2]
    exact pack_widen conv rd.kind hk (by omega) x
  have hmap : (v.toList.map (widen conv ru.kind ru.toKind)).map
      (fun x => PackOp.eval (if rd.kind = .i then .ss else .us) x) = v.toList := by
    rw [List.map_map, hid, List.map_id]
  rw [hlo, hhi]
  simp only [List.map_append, List.map_take, List.map_drop]
  rw [hmap, hq.1, List.take_take, List.drop_drop, List.drop_take]
  rw [show min (ru.width / 4) (2 * (ru.width / 4)) = ru.width / 4 by omega,
    show 2 * (ru.width / 4) + ru.width / 4 = 3 * (ru.width / 4) by omega,
    show 2 * (ru.width / 4) - ru.width / 4 = ru.width / 4 by omega]

/-- C47 is false: with AVX2, u8x32 comes back with its middle quarters exchanged, and
the u32 lane 2^32-1 comes back as 2^31-1 on every target. -/
theorem C47_false :
    (∃ ru ∈ upcastRows, ∃ rd ∈ downcastRows, ∃ mu md, ru.vec = "u8x32" ∧ ru.to = rd.vec ∧
      rd.to = ru.vec ∧ ru.mm = some mu ∧ rd.mm = some md ∧
      ∃ (v : Vector (BitVec 8) 32) (lo hi : Vector (BitVec 16) 16),
        upcastInstr (fun _ => 0#16) mu v = ok (lo, hi) ∧
        downcastInstr md lo hi ≠ ok v) ∧
    (∃ ru ∈ upcastRowsUnknown, ∃ rd ∈ downcastRowsUnknown, ru.vec = "u32x4" ∧ ru.to = rd.vec ∧
      rd.to = ru.vec ∧ ∃ (v : Vector (BitVec 32) 4) (lo hi : Vector (BitVec 64) 2),
        upcastFallback (widen (fun _ => 0#64) ru.kind ru.toKind) ru.first ru.second v = ok (lo, hi) ∧
        downcastFallback rd.kind rd.lanes lo hi ≠ ok v) := by
  constructor
  · refine ⟨upcastRows[4], List.getElem_mem _, downcastRows[10], List.getElem_mem _,
      .mm256_cvtepu8_epi16, .mm256_packus_epi16, rfl, rfl, rfl, rfl, rfl,
      Vector.ofFn fun i : Fin 32 => BitVec.ofNat 8 i, Vector.ofFn fun i : Fin 16 => BitVec.ofNat 16 i,
      Vector.ofFn fun i : Fin 16 => BitVec.ofNat 16 (16 + i), ?_, ?_⟩ <;> decide +kernel
  · refine ⟨upcastRowsUnknown[11], List.getElem_mem _, downcastRowsUnknown[2], List.getElem_mem _,
      rfl, rfl, rfl, #v[0#32, 0xFFFFFFFF#32, 0#32, 0#32], #v[0#64, 0xFFFFFFFF#64], #v[0#64, 0#64], ?_, ?_⟩ <;>
      decide +kernel

end Faster
