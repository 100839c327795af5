import Verif.Intrin.Cast
import Verif.Lemmas.Arith
/-
Lemmas about absolute values and casts.
-/
namespace Faster
open Res

variable {α β : Type} {n k w w' : Nat}

/-! ### Upcast -/

theorem bit_shuffleEpi32_hi (a : Vector (BitVec 32) 4) {p : Nat} (hp : p < 64) :
    bit (X86.shuffleEpi32 a 0x0E) p = bit a (p + 64) := by
  have h : p / 32 = 0 ∨ p / 32 = 1 := by omega
  rw [bit_eq _ (by omega), bit_eq _ (by omega)]
  have e1 : (p + 64) / 32 = p / 32 + 2 := by omega
  have e2 : (p + 64) % 32 = p % 32 := by omega
  simp only [e1, e2, X86.shuffleEpi32, Vector.getElem_ofFn]
  rcases h with h | h <;> simp [h, X86.field2, X86.lane]

theorem bit_permute4x64_hi (a : Vector (BitVec 64) 4) {p : Nat} (hp : p < 128) :
    bit (X86.permute4x64 a 0x0E) p = bit a (p + 128) := by
  have h : p / 64 = 0 ∨ p / 64 = 1 := by omega
  rw [bit_eq _ (by omega), bit_eq _ (by omega)]
  have e1 : (p + 128) / 64 = p / 64 + 2 := by omega
  have e2 : (p + 128) % 64 = p % 64 := by omega
  simp only [e1, e2, X86.permute4x64, Vector.getElem_ofFn]
  rcases h with h | h <;> simp [h, X86.field2, X86.lane]

theorem bit_castSi128 (a : Vector (BitVec 8) 32) {p : Nat} (hp : p < 128) :
    bit (X86.castSi128 a) p = bit a p := by
  rw [bit_eq _ (by omega), bit_eq _ (by omega)]
  simp [X86.castSi128, X86.lane, show p / 8 < 32 by omega]

theorem lane_bit_lt {i w n k : Nat} (hi : i < w) (hk : k < n) : i * n + k < w * n := by
  have := Nat.mul_le_mul_right n (Nat.succ_le_of_lt hi)
  rw [Nat.succ_mul] at this
  omega

/-- Lanes of a vector whose bits are those of `v` from lane `o` on. -/
theorem lane_of_bits (u : Vector (BitVec n) w') (v : Vector (BitVec n) w) {i o : Nat} (hi : i < w')
    (hv : i + o < w) (h : ∀ p, p < (i + 1) * n → bit u p = bit v (p + o * n)) : u[i] = v[i + o] := by
  apply BitVec.eq_of_getLsbD_eq
  intro k hk
  rw [← bit_lane u hi hk, ← bit_lane v hv hk, h _ (by rw [Nat.succ_mul]; omega), Nat.add_mul]
  congr 1
  omega

theorem upcast128_eq (f : BitVec n → BitVec k) (v : Vector (BitVec n) w) (hn : n * w' = 64)
    (hw : w = 2 * w') {i : Nat} (hi : i < w') :
    (upcast128 (w' := w') f v).1[i] = f v[i] ∧ (upcast128 (w' := w') f v).2[i] = f (v[i + w']) := by
  subst hw
  have hn' : w' * n = 64 := by rw [Nat.mul_comm]; exact hn
  have h2 : 2 * w' * n = 128 := by rw [Nat.mul_assoc]; omega
  have hb : (i + 1) * n ≤ 64 := by
    have : (i + 1) * n ≤ w' * n := Nat.mul_le_mul_right n hi
    omega
  constructor
  · simp only [upcast128, cvt, Vector.getElem_ofFn]
    rw [lane_eq _ (by omega)]
  · simp only [upcast128, cvt, Vector.getElem_ofFn]
    rw [lane_eq _ (by omega)]
    congr 1
    refine lane_of_bits _ _ (by omega) (by omega) fun p hp => ?_
    rw [bit_reinterpret _ (by omega), bit_shuffleEpi32_hi _ (by omega), hn',
      bit_reinterpret _ (by omega)]

theorem upcast256_eq (f : BitVec n → BitVec k) (v : Vector (BitVec n) w) (hn : n * w' = 128)
    (hw : w = 2 * w') {i : Nat} (hi : i < w') :
    (upcast256 (w' := w') f v).1[i] = f v[i] ∧ (upcast256 (w' := w') f v).2[i] = f (v[i + w']) := by
  subst hw
  have hn' : w' * n = 128 := by rw [Nat.mul_comm]; exact hn
  have h2 : 2 * w' * n = 256 := by rw [Nat.mul_assoc]; omega
  have hb : (i + 1) * n ≤ 128 := by
    have : (i + 1) * n ≤ w' * n := Nat.mul_le_mul_right n hi
    omega
  constructor
  · simp only [upcast256, cvt, Vector.getElem_ofFn]
    rw [lane_eq _ (by omega)]
    congr 1
    refine lane_of_bits (o := 0) _ _ (by omega) (by omega) fun p hp => ?_
    rw [bit_reinterpret _ (by omega), bit_castSi128 _ (by omega), bit_reinterpret _ (by omega)]
    simp
  · simp only [upcast256, cvt, Vector.getElem_ofFn]
    rw [lane_eq _ (by omega)]
    congr 1
    refine lane_of_bits _ _ (by omega) (by omega) fun p hp => ?_
    rw [bit_reinterpret _ (by omega), bit_castSi128 _ (by omega), bit_reinterpret _ (by omega),
      bit_permute4x64_hi _ (by omega), bit_reinterpret _ (by omega), hn']

theorem upcastFallback_ok (f : α → β) {first second : List Nat} (hf : first = List.range w')
    (hs : second = (List.range w').map (· + w')) (hw : w = 2 * w') (v : Vector α w) :
    upcastFallback f first second v = ok (Vector.ofFn fun i : Fin w' => f (v[i.val]'(by omega)),
      Vector.ofFn fun i : Fin w' => f (v[i.val + w']'(by omega))) := by
  subst hf hs
  unfold upcastFallback
  rw [newLanes_getElem (w := w') (v := Vector.ofFn fun i : Fin w' => f (v[i.val]'(by omega))),
    newLanes_getElem (w := w') (v := Vector.ofFn fun i : Fin w' => f (v[i.val + w']'(by omega)))]
  · rfl
  · simp
  · intro i hi
    simp [extract_ok (v := v) (i := i + w') (by omega)]
  · simp
  · intro i hi
    simp [extract_ok (v := v) (i := i) (by omega)]

/-! ### Downcast -/

/-- Exact lanes of a pack instruction: 128-bit blocks of `a` and `b` alternate. -/
theorem pack_getElem {e : Nat} (f : BitVec n → BitVec k) (a b : Vector (BitVec n) w)
    (hw : w % e = 0) (he : 0 < e) (hw' : w' = 2 * w) {i : Nat} (hi : i < w') :
    (X86.pack e f a b : Vector (BitVec k) w')[i] =
      if h : i % (2 * e) < e then
        f (a[i / (2 * e) * e + i % (2 * e)]'(by
          have h1 : i / (2 * e) * e + i % (2 * e) < w := by
            obtain ⟨m, rfl⟩ := Nat.dvd_of_mod_eq_zero hw
            have : i / (2 * e) < m := Nat.div_lt_of_lt_mul (by rw [hw'] at hi; rw [Nat.mul_assoc]; exact hi)
            have := Nat.mul_le_mul_right e (Nat.succ_le_of_lt this)
            rw [Nat.succ_mul, Nat.mul_comm m e] at this
            omega
          exact h1))
      else
        f (b[i / (2 * e) * e + (i % (2 * e) - e)]'(by
          have h1 : i / (2 * e) * e + (i % (2 * e) - e) < w := by
            obtain ⟨m, rfl⟩ := Nat.dvd_of_mod_eq_zero hw
            have : i / (2 * e) < m := Nat.div_lt_of_lt_mul (by rw [hw'] at hi; rw [Nat.mul_assoc]; exact hi)
            have := Nat.mul_le_mul_right e (Nat.succ_le_of_lt this)
            rw [Nat.succ_mul, Nat.mul_comm m e] at this
            have := Nat.mod_lt i (show 0 < 2 * e by omega)
            omega
          exact h1)) := by
  simp only [X86.pack, Vector.getElem_ofFn]
  have hlt : i / (2 * e) * e + e ≤ w := by
    obtain ⟨m, rfl⟩ := Nat.dvd_of_mod_eq_zero hw
    have : i / (2 * e) < m := Nat.div_lt_of_lt_mul (by rw [hw'] at hi; rw [Nat.mul_assoc]; exact hi)
    have := Nat.mul_le_mul_right e (Nat.succ_le_of_lt this)
    rw [Nat.succ_mul, Nat.mul_comm m e] at this
    omega
  have := Nat.mod_lt i (show 0 < 2 * e by omega)
  by_cases h : i % (2 * e) < e
  · rw [if_pos h, dif_pos h, lane_eq _ (by omega)]
  · rw [if_neg h, dif_neg h, lane_eq _ (by omega)]

theorem halves_toList (f : α → β) (v : Vector α w) (hw : w = 2 * w') :
    (Vector.ofFn fun i : Fin w' => f (v[i.val]'(by omega))).toList ++
      (Vector.ofFn fun i : Fin w' => f (v[i.val + w']'(by omega))).toList = v.toList.map f := by
  subst hw
  apply List.ext_getElem
  · simp; omega
  · intro i h1 h2
    by_cases h : i < w'
    · rw [List.getElem_append_left (by simpa using h)]
      simp
    · rw [List.getElem_append_right (by simpa using h)]
      simp only [Vector.getElem_toList, Vector.getElem_ofFn, Vector.length_toList, List.getElem_map]
      congr 1
      exact getElem_idx _ _ (by omega)

/-- Lane expressions of a correct downcast fallback to `k` bits: the lanes of `self`
then those of `other`, with the limits of the narrow type. -/
def downLanes (kind : Kind) (k w : Nat) : List DownLane :=
  (List.range w).map (fun i => ⟨true, i, kind.hi k, kind.lo k⟩) ++
    (List.range w).map (fun i => ⟨false, i, kind.hi k, kind.lo k⟩)

theorem narrowScalar_eq {kind : Kind} (hk : kind ≠ .f) (h0 : 0 < n) {l : DownLane}
    (ht : l.top = kind.hi k) (hb : l.bottom = kind.lo k) (h0k : 0 < k) (x : BitVec n) :
    (narrowScalar kind l x : BitVec k) = BitVec.ofInt k (kind.clamp k (kind.value x)) := by
  have hx := kind.value_bounds h0 x
  have hlh := kind.lo_le_hi h0k
  simp only [narrowScalar, Kind.clamp, ht, hb]
  congr 1
  cases kind
  · simp only [Kind.lo, Kind.hi, reduceCtorEq, if_false] at *; omega
  · simp only [if_true]; omega
  · exact absurd rfl hk

/-- The lanes of a fallback, for any limits. -/
theorem downcastFallback_lanes (kind : Kind) (lanes : List DownLane) (a b : Vector (BitVec n) w)
    (hl : lanes.length = w') (hi : ∀ l ∈ lanes, l.idx < w) :
    ∃ o : Vector (BitVec k) w', downcastFallback kind lanes a b = ok o ∧
      ∀ j (hj : j < w'), o[j] = narrowScalar kind (lanes[j]) ((if (lanes[j]).self then a else b)[(lanes[j]).idx]'(hi _ (List.getElem_mem _))) := by
  refine ⟨Vector.ofFn fun j => narrowScalar kind (lanes[j.val]) ((if (lanes[j.val]).self then a else b)[(lanes[j.val]).idx]'(hi _ (List.getElem_mem _))), ?_, ?_⟩
  · unfold downcastFallback
    refine newLanes_getElem _ (by simpa using hl) ?_
    intro j hj
    have hlt := hi (lanes[j]) (List.getElem_mem _)
    simp [extract_ok hlt]
  · intro j hj
    simp

theorem downcastFallback_ok {kind : Kind} (hk : kind ≠ .f) (h0 : 0 < n) (h0k : 0 < k)
    {lanes : List DownLane} (hl : lanes = downLanes kind k w) (hw : w' = 2 * w)
    (a b : Vector (BitVec n) w) :
    ∃ o : Vector (BitVec k) w', downcastFallback kind lanes a b = ok o ∧
      o.toList = (a.toList ++ b.toList).map fun x => BitVec.ofInt k (kind.clamp k (kind.value x)) := by
  subst hl hw
  obtain ⟨o, ho, hlane⟩ := downcastFallback_lanes (w' := 2 * w) (k := k) kind (downLanes kind k w) a b
    (by simp [downLanes]; omega) (by
      intro l hl
      simp only [downLanes, List.mem_append, List.mem_map, List.mem_range] at hl
      rcases hl with ⟨i, hi, rfl⟩ | ⟨i, hi, rfl⟩ <;> exact hi)
  refine ⟨o, ho, ?_⟩
  apply List.ext_getElem
  · simp; omega
  · intro i h1 h2
    have hi : i < 2 * w := by simpa using h1
    rw [Vector.getElem_toList, hlane i hi, List.getElem_map]
    by_cases h : i < w
    · have e : (downLanes kind k w)[i]'(by simp [downLanes]; omega) = ⟨true, i, kind.hi k, kind.lo k⟩ := by
        simp only [downLanes]
        rw [List.getElem_append_left (by simpa using h)]
        simp
      rw [narrowScalar_eq hk h0 (by rw [e]) (by rw [e]) h0k]
      rw [List.getElem_append_left (by simpa using h)]
      simp [e]
    · have e : (downLanes kind k w)[i]'(by simp [downLanes]; omega) = ⟨false, i - w, kind.hi k, kind.lo k⟩ := by
        simp only [downLanes]
        rw [List.getElem_append_right (by simpa using h)]
        simp
      rw [narrowScalar_eq hk h0 (by rw [e]) (by rw [e]) h0k]
      rw [List.getElem_append_right (by simpa using h)]
      simp [e]

/-- A pack instruction on 128-bit registers. -/
theorem pack128 (f : BitVec n → BitVec k) (a b : Vector (BitVec n) w) (hw' : w' = 2 * w) :
    (X86.pack w f a b : Vector (BitVec k) w').toList = (a.toList ++ b.toList).map f := by
  subst hw'
  apply List.ext_getElem
  · simp; omega
  · intro i h1 h2
    have hi : i < 2 * w := by simpa using h1
    rw [Vector.getElem_toList, pack_getElem f a b (Nat.mod_self w) (by omega) rfl hi, List.getElem_map]
    have e1 : i / (2 * w) = 0 := Nat.div_eq_of_lt hi
    have e2 : i % (2 * w) = i := Nat.mod_eq_of_lt hi
    simp only [e1, e2, Nat.zero_mul, Nat.zero_add]
    by_cases h : i < w
    · rw [dif_pos h, List.getElem_append_left (by simpa using h)]
      simp
    · rw [dif_neg h, List.getElem_append_right (by simpa using h)]
      simp

/-- A pack instruction on 256-bit registers: low half of `a`, low half of `b`, high
half of `a`, high half of `b`. -/
theorem pack256 {e : Nat} (f : BitVec n → BitVec k) (a b : Vector (BitVec n) w) (he : w = 2 * e)
    (hw' : w' = 2 * w) :
    (X86.pack e f a b : Vector (BitVec k) w').toList =
      (a.toList.take e ++ b.toList.take e ++ (a.toList.drop e ++ b.toList.drop e)).map f := by
  subst hw' he
  apply List.ext_getElem
  · simp; omega
  · intro i h1 h2
    have hi : i < 2 * (2 * e) := by simpa using h1
    have hm : (2 * e) % e = 0 := Nat.mul_mod_left 2 e
    rw [Vector.getElem_toList, pack_getElem f a b hm (by omega) rfl hi, List.getElem_map]
    by_cases h : i < 2 * e
    · have e1 : i / (2 * e) = 0 := Nat.div_eq_of_lt h
      have e2 : i % (2 * e) = i := Nat.mod_eq_of_lt h
      simp only [e1, e2, Nat.zero_mul, Nat.zero_add]
      rw [List.getElem_append_left (by simp; omega)]
      by_cases h' : i < e
      · rw [dif_pos h', List.getElem_append_left (by simp; omega)]
        simp
      · rw [dif_neg h', List.getElem_append_right (by simp; omega)]
        simp only [List.getElem_take, List.length_take, Vector.length_toList, Vector.getElem_toList]
        congr 1
        exact getElem_idx _ _ (by omega)
    · have e1 : i / (2 * e) = 1 := by
        rw [Nat.div_eq_iff (by omega)]; omega
      have e2 : i % (2 * e) = i - 2 * e := by
        rw [Nat.mod_eq_sub_mod (by omega), Nat.mod_eq_of_lt (by omega)]
      simp only [e1, e2, Nat.one_mul]
      rw [List.getElem_append_right (by simp; omega)]
      by_cases h' : i - 2 * e < e
      · rw [dif_pos h', List.getElem_append_left (by simp; omega)]
        simp only [List.getElem_drop, List.length_append, List.length_take, Vector.length_toList, Vector.getElem_toList]
        congr 1
        exact getElem_idx _ _ (by omega)
      · rw [dif_neg h', List.getElem_append_right (by simp; omega)]
        simp only [List.getElem_drop, List.length_append, List.length_drop, List.length_take, Vector.length_toList, Vector.getElem_toList]
        congr 1
        exact getElem_idx _ _ (by omega)

/-! ### Absolute value -/

theorem absScalar_toNat (x : BitVec n) : (absScalar x).toNat = x.toInt.natAbs := by
  have hx := x.isLt
  unfold absScalar
  rw [BitVec.toInt_eq_toNat_cond]
  by_cases h : 2 * x.toNat < 2 ^ n
  · rw [if_pos h, if_neg (by omega)]
    omega
  · rw [if_neg h, if_pos (by omega), BitVec.toNat_sub, BitVec.toNat_ofNat, Nat.zero_mod,
      Nat.add_zero, Nat.mod_eq_of_lt (by omega)]
    omega

theorem absEpi_toNat (x : BitVec n) : (X86.absEpi x).toNat = x.toInt.natAbs := by
  have hx := x.isLt
  unfold X86.absEpi
  rw [BitVec.toInt_eq_toNat_cond]
  by_cases h : 2 * x.toNat < 2 ^ n
  · have hm : x.msb = false := by rw [BitVec.msb_eq_false_iff_two_mul_lt]; exact h
    rw [if_pos h, if_neg (by simp [hm])]
    omega
  · have hm : x.msb = true := by rw [BitVec.msb_eq_true_iff_two_mul_ge]; omega
    rw [if_neg h, if_pos hm, BitVec.toNat_neg, Nat.mod_eq_of_lt (by omega)]
    omega

theorem fabsScalar_getLsbD (x : BitVec n) {k : Nat} (hk : k < n) :
    (fabsScalar x).getLsbD k = (x.getLsbD k && decide (k ≠ n - 1)) := by
  unfold fabsScalar
  rw [BitVec.getLsbD_ofNat, Nat.testBit_mod_two_pow, BitVec.getLsbD]
  have : (k < n - 1) ↔ (k ≠ n - 1) := by omega
  simp only [hk, decide_true, Bool.true_and, this]
  exact Bool.and_comm ..

end Faster
