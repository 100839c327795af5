import Verif.Props.Cast
/-
C46, C47: exactly which vectors the wrong versions of `saturating_downcast` treat correctly.
-/
namespace Faster
open Res

/-- Two lists which are cut into pieces of the same lengths are equal if all the pieces are. -/
theorem append3_inj {α : Type} {a b c a' b' c' : List α} (h1 : a.length = a'.length)
    (h2 : b.length = b'.length) : a ++ (b ++ c) = a' ++ (b' ++ c') ↔ a = a' ∧ b = b' ∧ c = c' := by
  constructor
  · intro h
    obtain ⟨h3, h4⟩ := List.append_inj h h1
    obtain ⟨h5, h6⟩ := List.append_inj h4 h2
    exact ⟨h3, h5, h6⟩
  · rintro ⟨rfl, rfl, rfl⟩
    rfl

/-- **C47**, AVX2 packs: the vector comes back exactly if its two middle quarters are equal. -/
theorem C47_pack256_iff (ru : UpRow) (hu : ru ∈ upcastRows) (rd : DownRow) (hd : rd ∈ downcastRows)
    (hp : ru.to = rd.vec ∧ rd.to = ru.vec) (mm : Instr) (hm : rd.mm = some mm)
    (h256 : 16 * rd.size * rd.width = 256)
    (conv : BitVec (8 * ru.size) → BitVec (16 * ru.size)) (v : Vector (BitVec (8 * ru.size)) ru.width)
    (lo hi : Vector (BitVec (16 * ru.size)) (ru.width / 2))
    (hv : lo.toList ++ hi.toList = v.toList.map (widen conv ru.kind ru.toKind)) :
    downcastInstr mm lo hi = ok v ↔
      (v.toList.drop (ru.width / 4)).take (ru.width / 4) =
        (v.toList.drop (2 * (ru.width / 4))).take (ru.width / 4) := by
  obtain ⟨o, h1, h2⟩ := C47_pack256 ru hu rd hd hp mm hm h256 conv v lo hi hv
  have hwid : ru.width = 4 * (ru.width / 4) := by
    obtain ⟨hs, hw, -, -⟩ :=
      cast_pairs ru (List.mem_append_left _ hu) rd (List.mem_append_left _ hd) hp.1 hp.2
    rw [hs, hw] at h256
    have : ∀ r ∈ upcastRows, 16 * r.size * (r.width / 2) = 256 → r.width = 4 * (r.width / 4) := by
      decide +kernel
    exact this ru hu h256
  generalize ru.width / 4 = q at *
  have hvl : v.toList = v.toList.take q ++ ((v.toList.drop q).take q ++
      ((v.toList.drop (2 * q)).take q ++ v.toList.drop (3 * q))) := by
    have e1 : v.toList.drop (2 * q) = (v.toList.drop (2 * q)).take q ++ v.toList.drop (3 * q) := by
      conv => lhs; rw [← List.take_append_drop q (v.toList.drop (2 * q)), List.drop_drop]
      rw [show 2 * q + q = 3 * q by omega]
    rw [← e1]
    have e2 : v.toList.drop q = (v.toList.drop q).take q ++ v.toList.drop (2 * q) := by
      conv => lhs; rw [← List.take_append_drop q (v.toList.drop q), List.drop_drop]
      rw [show q + q = 2 * q by omega]
    rw [← e2, List.take_append_drop]
  rw [h1, ok.injEq, ← Vector.toList_inj, h2, List.append_assoc]
  conv => lhs; rhs; rw [hvl]
  rw [append3_inj rfl (by simp; omega)]
  constructor
  · rintro ⟨-, h, -⟩
    exact h.symm
  · intro h
    exact ⟨rfl, h.symm, by rw [h]⟩

/-- **C47**, u32 on every target: with `(lo, hi)` the upcast of `v`, `lo.saturating_downcast(hi)` is `v`
exactly if the lanes whose limit is 2^31-1 are not larger. -/
theorem C47_u32_iff (r : DownRow) (hr : r ∈ downcastRows ++ downcastRowsUnknown) (hk : r.kind = .u)
    (h4 : r.size = 4) (v : Vector (BitVec 32) (2 * r.width)) (lo hi : Vector (BitVec 64) r.width)
    (hv : lo.toList ++ hi.toList = v.toList.map (BitVec.setWidth 64)) :
    downcastFallback r.kind r.lanes lo hi = ok v ↔
      ∀ j (hj : j < 2 * r.width), ∃ l ∈ r.lanes[j]?, l.top = 2 ^ 32 - 1 ∨ v[j].toNat < 2 ^ 31 := by
  obtain ⟨o, h1, h2⟩ := C46_u64 r hr hk h4 lo hi
  have hsrc : ∀ j (hj : j < 2 * r.width) (h : j % r.width < r.width),
      ((if j < r.width then lo else hi)[j % r.width]).toNat = v[j].toNat := by
    intro j hj h
    have hget : (lo.toList ++ hi.toList)[j]'(by simp; omega) = v[j].setWidth 64 := by
      simp [hv]
    have : (if j < r.width then lo else hi)[j % r.width] = v[j].setWidth 64 := by
      rw [← hget]
      by_cases hlt : j < r.width
      · rw [List.getElem_append_left (by simpa using hlt)]
        simp [hlt, Nat.mod_eq_of_lt hlt]
      · rw [List.getElem_append_right (by simpa using hlt)]
        have : j % r.width = j - r.width := by
          rw [Nat.mod_eq_sub_mod (by omega), Nat.mod_eq_of_lt (by omega)]
        simp [hlt, this]
    rw [this]
    exact BitVec.toNat_setWidth_of_le (by omega)
  rw [h1, ok.injEq]
  constructor
  · rintro rfl j hj
    obtain ⟨l, hl, h, ht, he⟩ := h2 j hj
    rw [hsrc j hj h] at he
    exact ⟨l, hl, by omega⟩
  · intro h
    apply Vector.ext
    intro j hj
    obtain ⟨l, hl, h3, ht, he⟩ := h2 j hj
    obtain ⟨l', hl', h5⟩ := h j hj
    have : l = l' := by
      rw [Option.mem_def] at hl hl'
      rw [hl] at hl'
      exact Option.some.inj hl'
    subst this
    rw [hsrc j hj h3] at he
    apply BitVec.eq_of_toNat_eq
    have := v[j].isLt
    omega

/-- Two lists of the same length, exchanged and clamped with a function `g` which is `f` where `P` holds
and 0 elsewhere. -/
theorem crossed_iff {β : Type} {f g : β → Int} {P : β → Prop} (h1 : ∀ x, P x → g x = f x)
    (h2 : ∀ x, ¬ P x → g x = 0 ∧ f x ≠ 0) : ∀ {l m : List β}, l.length = m.length →
    (m.map g = l.map f ∧ l.map g = m.map f ↔ (∀ x ∈ l ++ m, P x) ∧ l.map f = m.map f)
  | [], [], _ => by simp
  | [], _ :: _, h => by simp at h
  | _ :: _, [], h => by simp at h
  | x :: l, y :: m, h => by
    have ih := crossed_iff h1 h2 (l := l) (m := m) (by simpa using h)
    simp only [List.map_cons, List.cons.injEq]
    constructor
    · rintro ⟨⟨e1, e2⟩, e3, e4⟩
      obtain ⟨i1, i2⟩ := ih.1 ⟨e2, e4⟩
      have hx : P x := by
        apply Classical.byContradiction
        intro hn
        obtain ⟨n1, n2⟩ := h2 x hn
        by_cases hy : P y
        · have := h1 y hy
          omega
        · obtain ⟨m1, m2⟩ := h2 y hy
          omega
      have hy : P y := by
        apply Classical.byContradiction
        intro hn
        obtain ⟨n1, n2⟩ := h2 y hn
        have := h1 x hx
        omega
      refine ⟨?_, by rw [← h1 x hx, e3], i2⟩
      intro z hz
      simp only [List.cons_append, List.mem_cons, List.mem_append] at hz
      rcases hz with rfl | hz | rfl | hz
      · exact hx
      · exact i1 z (by simp [hz])
      · exact hy
      · exact i1 z (by simp [hz])
    · rintro ⟨hP, e1, e2⟩
      obtain ⟨i1, i2⟩ := ih.2 ⟨fun z hz => hP z (by
        simp only [List.cons_append, List.mem_cons, List.mem_append] at hz ⊢
        rcases hz with hz | hz <;> simp [hz]), e2⟩
      rw [h1 x (hP x (by simp)), h1 y (hP y (by simp))]
      exact ⟨⟨e1.symm, i1⟩, e1, i2⟩

/-- The same for four lists, of which the middle two are exchanged. -/
theorem crossed4_iff {β : Type} {f g : β → Int} {P : β → Prop} (h1 : ∀ x, P x → g x = f x)
    (h2 : ∀ x, ¬ P x → g x = 0 ∧ f x ≠ 0) {a1 a2 b1 b2 : List β} (hl : a2.length = b1.length) :
    (a1 ++ b1 ++ (a2 ++ b2)).map g = (a1 ++ a2 ++ (b1 ++ b2)).map f ↔
      (∀ x ∈ a1 ++ a2 ++ (b1 ++ b2), P x) ∧ a2.map f = b1.map f := by
  have hsame : ∀ l : List β, l.map g = l.map f ↔ ∀ x ∈ l, P x := by
    intro l
    rw [List.map_inj_left]
    refine forall_congr' fun x => forall_congr' fun _ => ?_
    by_cases hx : P x
    · simp [hx, h1 x hx]
    · obtain ⟨e1, e2⟩ := h2 x hx
      simp only [hx, iff_false]
      omega
  simp only [List.map_append, List.append_assoc]
  rw [append3_inj (by simp) (by simp [hl])]
  constructor
  · rintro ⟨e1, e2, e3⟩
    obtain ⟨e4, e5⟩ := List.append_inj e3 (by simp [hl])
    obtain ⟨i1, i2⟩ := (crossed_iff h1 h2 hl).1 ⟨e2, e4⟩
    refine ⟨?_, i2⟩
    intro x hx
    simp only [List.mem_append] at hx
    rcases hx with hx | hx | hx | hx
    · exact (hsame a1).1 e1 x hx
    · exact i1 x (by simp [hx])
    · exact i1 x (by simp [hx])
    · exact (hsame b2).1 e5 x hx
  · rintro ⟨hP, e⟩
    obtain ⟨i1, i2⟩ := (crossed_iff h1 h2 hl).2 ⟨fun x hx => hP x (by
      simp only [List.mem_append] at hx ⊢
      rcases hx with hx | hx <;> simp [hx]), e⟩
    exact ⟨(hsame a1).2 fun x hx => hP x (by simp [hx]), i1, by
      rw [i2, (hsame b2).2 fun x hx => hP x (by simp [hx])]⟩

/-- **C46**, unsigned AVX2 packs: right exactly if no lane has its highest bit set and the second half of
`a` and the first half of `b` clamp to the same values. -/
theorem C46_packus256_iff (r : DownRow) (hr : r ∈ downcastRows) (mm : Instr) (hm : r.mm = some mm)
    (h256 : 16 * r.size * r.width = 256) (hk : r.kind = .u)
    (a b : Vector (BitVec (16 * r.size)) r.width) :
    ∃ o : Vector (BitVec (8 * r.size)) (2 * r.width), downcastInstr mm a b = ok o ∧
      (IsDowncast false a b o ↔ (∀ x ∈ a.toList ++ b.toList, x.msb = false) ∧
        (a.toList.drop (r.width / 2)).map (fun x => nearest false (8 * r.size) (num false x)) =
          (b.toList.take (r.width / 2)).map (fun x => nearest false (8 * r.size) (num false x))) := by
  have h0 := (downcastRows_facts r (List.mem_append_left _ hr)).1
  obtain ⟨o, h1, h2⟩ := C46_pack256 r hr mm hm h256 a b
  refine ⟨o, h1, ?_⟩
  have hw : r.width = 2 * (r.width / 2) := by
    have : ∀ r ∈ downcastRows, r.width = 2 * (r.width / 2) := by decide +kernel
    exact this r hr
  have hp : (2 : Int) ^ 8 ≤ 2 ^ (8 * r.size) := by
    have : 2 ^ 8 ≤ 2 ^ (8 * r.size) := Nat.pow_le_pow_right (by omega) (by omega)
    exact_mod_cast this
  have hg : ∀ x : BitVec (16 * r.size), x.msb = false →
      num false (X86.narrowUS (8 * r.size) x) = nearest false (8 * r.size) (num false x) := by
    intro x hx
    rw [BitVec.msb_eq_false_iff_two_mul_lt] at hx
    rw [narrowUS_num (by omega), if_pos hx]
    rfl
  have hg' : ∀ x : BitVec (16 * r.size), ¬ x.msb = false →
      num false (X86.narrowUS (8 * r.size) x) = 0 ∧ nearest false (8 * r.size) (num false x) ≠ 0 := by
    intro x hx
    rw [BitVec.msb_eq_false_iff_two_mul_lt] at hx
    refine ⟨by rw [narrowUS_num (by omega), if_neg hx], ?_⟩
    have h3 : 2 ^ 16 ≤ 2 ^ (16 * r.size) := Nat.pow_le_pow_right (by omega) (by omega)
    simp only [nearest, num, Bool.false_eq_true, if_false]
    omega
  unfold IsDowncast
  rw [h2, if_neg (by simp [hk]), List.map_map]
  simp only [Function.comp_def]
  have h4 := crossed4_iff hg hg' (a1 := a.toList.take (r.width / 2)) (a2 := a.toList.drop (r.width / 2))
    (b1 := b.toList.take (r.width / 2)) (b2 := b.toList.drop (r.width / 2)) (by simp; omega)
  rw [List.take_append_drop, List.take_append_drop] at h4
  exact h4

/-- There are 256-bit packs which undo an upcast. -/
example : ∃ ru ∈ upcastRows, ∃ rd ∈ downcastRows, ∃ mm, rd.mm = some mm ∧ ru.to = rd.vec ∧
    rd.to = ru.vec ∧ 16 * rd.size * rd.width = 256 := by decide +kernel

/-- There are u64 vectors. -/
example : ∃ r ∈ downcastRows, r.kind = .u ∧ r.size = 4 := by decide +kernel

/-- There are unsigned 256-bit packs. -/
example : ∃ r ∈ downcastRows, r.mm.isSome ∧ r.kind = .u ∧ 16 * r.size * r.width = 256 := by
  decide +kernel

end Faster
