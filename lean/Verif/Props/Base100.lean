import Verif.Base100
import Verif.Props.Collect
import Verif.Props.Merge
import Verif.Props.Cast
import Verif.Props.Shuffle
import Verif.Props.Programs
/-
C99: what the vector version of the base100 encoder writes.
-/
namespace Faster
open Res

variable {q : Nat}

/-! ### Specification -/

/-- The third byte of a character in base100. -/
def base100Third (x : BitVec 8) : BitVec 8 := BitVec.ofNat 8 ((x.toNat + 55) / 64 + 143)

/-- The fourth byte of a character in base100. -/
def base100Fourth (x : BitVec 8) : BitVec 8 := BitVec.ofNat 8 ((x.toNat + 55) % 64 + 128)

/-- The encoding: four bytes per character. -/
def base100 (data : List (BitVec 8)) : List (BitVec 8) :=
  data.flatMap fun x => [0xf0#8, 0x9f#8, base100Third x, base100Fourth x]

/-- What the vector version writes for lane `e` of a vector, whose value is `x`. -/
def base100Wrong (e : Nat) (x : BitVec 8) : List (BitVec 8) :=
  if e % 2 = 0 then [0#8, 0#8, 0x9f#8, 0xf0#8] else [base100Fourth x, 0#8, 0#8, 0#8]

/-- What the vector version writes for one vector. -/
def base100WrongVec (v : List (BitVec 8)) : List (BitVec 8) := (v.mapIdx base100Wrong).flatten

/-- What is needed of the operations: upcasts extend with zeros, in order;
`merge_interleaved` takes even lanes from the first and odd lanes from the second
vector; `saturating_downcast` and `swap_bytes` return something. -/
structure Base100Right (o : Base100Ops q) : Prop where
  up8 : ∀ v, ∃ a b, o.up8 v = ok (a, b) ∧ a.toList ++ b.toList = v.toList.map (BitVec.setWidth 16)
  up16 : ∀ v, ∃ a b, o.up16 v = ok (a, b) ∧ a.toList ++ b.toList = v.toList.map (BitVec.setWidth 32)
  down16 : ∀ a b, ∃ v, o.down16 a b = ok v
  swap16 : ∀ v, ∃ u, o.swap16 v = ok u
  merge16 : ∀ a b, o.merge16 a b = ok (select (fun i => i % 2 = 0) a b)
  merge32 : ∀ a b, o.merge32 a b = ok (select (fun i => i % 2 = 0) a b)

/-! ### One vector -/

theorem fourth_eq (x : BitVec 8) : ((x + 55#8) &&& 0x3f#8) + 128#8 = base100Fourth x := by
  revert x; decide +kernel

theorem third_eq (x : BitVec 8) :
    (((x.zeroExtend 16 + 55#16) >>> 6) + 143#16).setWidth 8 = base100Third x := by
  revert x; decide +kernel

/-- The bytes of a vector of 32-bit lanes. -/
theorem bytes32 (u : Vector (BitVec 32) q) :
    (reinterpret u : Vector (BitVec 8) (4 * q)).toList =
      (u.toList.map fun x => [x.extractLsb' 0 8, x.extractLsb' 8 8, x.extractLsb' 16 8,
        x.extractLsb' 24 8]).flatten := by
  have key : ∀ l : List (BitVec 32), ∀ p, ((l.map fun x => [x.extractLsb' 0 8, x.extractLsb' 8 8,
      x.extractLsb' 16 8, x.extractLsb' 24 8]).flatten)[p]? =
      (l[p / 4]?).map fun x => x.extractLsb' (p % 4 * 8) 8 := by
    intro l
    induction l with
    | nil => simp
    | cons x l ih =>
      intro p
      by_cases hp : p < 4
      · have : p = 0 ∨ p = 1 ∨ p = 2 ∨ p = 3 := by omega
        rcases this with rfl | rfl | rfl | rfl <;> simp
      · obtain ⟨p, rfl⟩ : ∃ m, p = m + 4 := ⟨p - 4, by omega⟩
        simp only [List.map_cons, List.flatten_cons]
        rw [List.getElem?_append_right (by simp), show p + 4 - _ = p from by simp, ih,
          show (p + 4) / 4 = p / 4 + 1 by omega, show (p + 4) % 4 = p % 4 by omega]
        simp
  apply List.ext_getElem?
  intro p
  rw [key]
  by_cases hp : p < 4 * q
  · have h4 : p / 4 < q := by omega
    rw [List.getElem?_eq_getElem (by simpa using hp), List.getElem?_eq_getElem (by simpa using h4)]
    simp only [Vector.getElem_toList, Option.map_some, Option.some.injEq]
    exact reinterpret_narrow (r := 4) u rfl (by omega) hp h4
  · rw [List.getElem?_eq_none (by simpa using hp), List.getElem?_eq_none (by simp; omega)]
    rfl

/-- One of the four stored vectors: built from the odd lanes of a vector of 16-bit lanes. -/
theorem base100_quarter (hq : q % 2 = 0) (l : List (BitVec 8)) (t : Vector (BitVec 32) q) (p : Nat)
    (hp : p % 2 = 0) (hl : p + q ≤ l.length)
    (ht : ∀ e (he : e < q), e % 2 = 1 → t[e] = (base100Fourth (l[p + e]'(by omega))).setWidth 32) :
    (reinterpret (select (fun i => i % 2 = 0) (Packed.splat 0xf09f0000#32) t) :
      Vector (BitVec 8) (4 * q)).toList = (((l.mapIdx base100Wrong).drop p).take q).flatten := by
  rw [bytes32]
  congr 1
  apply List.ext_getElem
  · simp; omega
  · intro e h1 h2
    have he : e < q := by simpa using h1
    simp only [List.getElem_map, Vector.getElem_toList, List.getElem_take, List.getElem_drop,
      List.getElem_mapIdx, select, Vector.getElem_ofFn]
    unfold base100Wrong
    by_cases h : e % 2 = 0
    · rw [if_pos (by simpa using h), if_pos (by omega)]
      simp [Packed.splat]
    · rw [if_neg (by simpa using h), if_neg (by omega)]
      simp only [Fin.getElem_fin]
      rw [ht e he (by omega)]
      generalize base100Fourth _ = y
      revert y
      decide +kernel

theorem splice_join {α : Type} (d : List α) (o m : Nat) (xs ys : List α) (hm : m = o + xs.length)
    (h : o + xs.length + ys.length ≤ d.length) :
    splice (splice d o xs) m ys = splice d o (xs ++ ys) := by
  subst hm
  exact splice_splice d o xs ys h

theorem base100WrongVec_length (l : List (BitVec 8)) : (base100WrongVec l).length = 4 * l.length := by
  unfold base100WrongVec
  have : ∀ x ∈ l.mapIdx base100Wrong, x.length = 4 := by
    intro x hx
    obtain ⟨i, hi, rfl⟩ := List.mem_mapIdx.mp hx
    unfold base100Wrong
    split <;> rfl
  have key : ∀ m : List (List (BitVec 8)), (∀ x ∈ m, x.length = 4) → m.flatten.length = 4 * m.length := by
    intro m
    induction m with
    | nil => simp
    | cons x m ih =>
      intro h
      simp only [List.flatten_cons, List.length_append, List.length_cons]
      rw [h x (by simp), ih fun y hy => h y (by simp [hy])]
      omega
  rw [key _ this]
  simp

theorem take_drop_flatten {β : Type} (m : List (List β)) (q : Nat) (h : m.length = 4 * q) :
    (m.take q).flatten ++ ((m.drop q).take q).flatten ++ ((m.drop (2 * q)).take q).flatten ++
      ((m.drop (3 * q)).take q).flatten = m.flatten := by
  rw [← List.flatten_append, ← List.flatten_append, ← List.flatten_append]
  congr 1
  have e3 : (m.drop (3 * q)).take q = m.drop (3 * q) := List.take_of_length_le (by simp; omega)
  have e2 : (m.drop (2 * q)).take q ++ m.drop (3 * q) = m.drop (2 * q) := by
    rw [show 3 * q = 2 * q + q by omega, ← List.drop_drop, List.take_append_drop]
  have e1 : (m.drop q).take q ++ m.drop (2 * q) = m.drop q := by
    rw [show 2 * q = q + q by omega, ← List.drop_drop, List.take_append_drop]
  rw [e3, List.append_assoc, List.append_assoc, e2, e1, List.take_append_drop]

theorem store_eq {β : Type} {w : Nat} (v : Vector β w) (out : List β) (o : Nat) :
    Packed.store v out o = if o + w ≤ out.length then ok (splice out o v.toList) else panic := by
  rcases store_cases v out o with ⟨h, e⟩ | ⟨h, e⟩
  · rw [e, if_pos h]
  · rw [e, if_neg (by omega)]

/-- The four vectors which one call stores. -/
theorem base100_parts {o : Base100Ops q} (ho : Base100Right o) (hq : q % 2 = 0) (c : Cfg)
    (v : Vector (BitVec 8) (4 * q)) :
    ∃ u0 u1 u2 u3 : Vector (BitVec 8) (4 * q),
      u0.toList ++ u1.toList ++ u2.toList ++ u3.toList = base100WrongVec v.toList ∧
      ∀ out i, base100Body o c (out, i) v = (do
        let out ← Packed.store u0 out i
        let out ← Packed.store u1 out (← uadd c i (4 * q))
        let out ← Packed.store u2 out (← uadd c i (← umul c (4 * q) 2))
        let out ← Packed.store u3 out (← uadd c i (← umul c (4 * q) 3))
        let i ← uadd c i (← umul c (4 * q) 4)
        ok ((), (out, i))) := by
  obtain ⟨a, b, h1, -⟩ := ho.up8 v
  obtain ⟨third, h2⟩ := ho.down16 (a.map fun x => (x + 55#16) / 64#16 + 143#16)
    (b.map fun x => (x + 55#16) / 64#16 + 143#16)
  obtain ⟨ta, tb, h3, -⟩ := ho.up8 third
  obtain ⟨fa, fb, h4, hf⟩ := ho.up8 (v.map fun x => ((x + 55#8) &&& 0x3f#8) + 128#8)
  obtain ⟨sa, h5⟩ := ho.swap16 ta
  obtain ⟨sb, h6⟩ := ho.swap16 tb
  obtain ⟨tfa, tfb, h7, hA⟩ := ho.up16 (select (fun i => i % 2 = 0) sa fa)
  obtain ⟨tfc, tfd, h8, hB⟩ := ho.up16 (select (fun i => i % 2 = 0) sb fb)
  refine ⟨reinterpret (select (fun i => i % 2 = 0) (Packed.splat 0xf09f0000#32) tfa),
    reinterpret (select (fun i => i % 2 = 0) (Packed.splat 0xf09f0000#32) tfb),
    reinterpret (select (fun i => i % 2 = 0) (Packed.splat 0xf09f0000#32) tfc),
    reinterpret (select (fun i => i % 2 = 0) (Packed.splat 0xf09f0000#32) tfd), ?_, fun out i => ?_⟩
  · have hfa : ∀ e (he : e < 2 * q), fa[e] = (base100Fourth (v[e]'(by omega))).setWidth 16 := by
      intro e he
      have := congrArg (fun l => l[e]?) hf
      simp only [List.getElem?_append, Vector.length_toList, if_pos he] at this
      simpa [he, show e < 4 * q by omega, fourth_eq] using this
    have hfb : ∀ e (he : e < 2 * q), fb[e] = (base100Fourth (v[2 * q + e]'(by omega))).setWidth 16 := by
      intro e he
      have := congrArg (fun l => l[2 * q + e]?) hf
      simp only [List.getElem?_append, Vector.length_toList, if_neg (show ¬ 2 * q + e < 2 * q by omega),
        Nat.add_sub_cancel_left] at this
      simpa [he, show 2 * q + e < 4 * q by omega, fourth_eq] using this
    have up : ∀ (s f : Vector (BitVec 16) (2 * q)) (x y : Vector (BitVec 32) q),
        x.toList ++ y.toList = (select (fun i => i % 2 = 0) s f).toList.map (BitVec.setWidth 32) →
        ∀ e (he : e < q), e % 2 = 1 → x[e] = (f[e]'(by omega)).setWidth 32 ∧
          y[e] = (f[q + e]'(by omega)).setWidth 32 := by
      intro s f x y h e he h2
      constructor
      · have := congrArg (fun l => l[e]?) h
        simp only [List.getElem?_append, Vector.length_toList, if_pos he] at this
        simpa [he, show e < 2 * q by omega, select, h2] using this
      · have := congrArg (fun l => l[q + e]?) h
        simp only [List.getElem?_append, Vector.length_toList, if_neg (show ¬ q + e < q by omega),
          Nat.add_sub_cancel_left] at this
        simpa [he, show q + e < 2 * q by omega, select, show (q + e) % 2 = 1 by omega] using this
    have z : ∀ y : BitVec 8, (y.setWidth 16).setWidth 32 = y.setWidth 32 := by decide +kernel
    unfold base100WrongVec
    rw [base100_quarter hq v.toList tfa 0 rfl (by simp; omega) fun e he h => by
        rw [(up sa fa tfa tfb hA e he h).1, hfa e (by omega), z]; simp,
      base100_quarter hq v.toList tfb q hq (by simp; omega) fun e he h => by
        rw [(up sa fa tfa tfb hA e he h).2, hfa (q + e) (by omega), z]; simp,
      base100_quarter hq v.toList tfc (2 * q) (by omega) (by simp; omega) fun e he h => by
        rw [(up sb fb tfc tfd hB e he h).1, hfb e (by omega), z]; simp,
      base100_quarter hq v.toList tfd (3 * q) (by omega) (by simp; omega) fun e he h => by
        rw [(up sb fb tfc tfd hB e he h).2, hfb (q + e) (by omega), z]
        simp [show 2 * q + (q + e) = 3 * q + e by omega],
      List.drop_zero]
    exact take_drop_flatten _ q (by simp)
  · simp only [base100Body, h1, h2, h3, h4, h5, h6, h7, h8, ho.merge16, ho.merge32, ok_bind]

/-- One call of the closure: the four stores succeed if there is room, and otherwise
it panics. -/
theorem base100Body_eq {o : Base100Ops q} (ho : Base100Right o) (hq : q % 2 = 0) (hq0 : 0 < q)
    (c : Cfg) (out : List (BitVec 8)) (i : Nat) (v : Vector (BitVec 8) (4 * q))
    (hi : i ≤ out.length) (hu : out.length + 16 * q < c.usize) :
    base100Body o c (out, i) v =
      if i + 16 * q ≤ out.length
      then ok ((), (splice out i (base100WrongVec v.toList), i + 16 * q)) else panic := by
  obtain ⟨u0, u1, u2, u3, hl, hb⟩ := base100_parts ho hq c v
  rw [hb]
  have m2 : umul c (4 * q) 2 = ok (8 * q) := by rw [umul_ok (by omega)]; congr 1; omega
  have m3 : umul c (4 * q) 3 = ok (12 * q) := by rw [umul_ok (by omega)]; congr 1; omega
  have m4 : umul c (4 * q) 4 = ok (16 * q) := by rw [umul_ok (by omega)]; congr 1; omega
  simp only [m2, m3, m4, ok_bind, uadd_ok (show i + 4 * q < c.usize by omega),
    uadd_ok (show i + 8 * q < c.usize by omega), uadd_ok (show i + 12 * q < c.usize by omega),
    uadd_ok (show i + 16 * q < c.usize by omega)]
  rw [store_eq]
  by_cases h0 : i + 4 * q ≤ out.length
  swap
  · rw [if_neg h0, if_neg (by omega)]; rfl
  rw [if_pos h0, ok_bind, store_eq, splice_length _ _ _ (by simpa using h0)]
  by_cases h1 : i + 4 * q + 4 * q ≤ out.length
  swap
  · rw [if_neg h1, if_neg (by omega)]; rfl
  rw [if_pos h1, ok_bind, splice_join _ _ _ _ _ (by simp) (by simp; omega), store_eq,
    splice_length _ _ _ (by simp; omega)]
  by_cases h2 : i + 8 * q + 4 * q ≤ out.length
  swap
  · rw [if_neg h2, if_neg (by omega)]; rfl
  rw [if_pos h2, ok_bind, splice_join _ _ _ _ _ (by simp; omega) (by simp; omega), store_eq,
    splice_length _ _ _ (by simp; omega)]
  by_cases h3 : i + 12 * q + 4 * q ≤ out.length
  swap
  · rw [if_neg h3, if_neg (by omega)]; rfl
  rw [if_pos h3, ok_bind, splice_join _ _ _ _ _ (by simp; omega) (by simp; omega),
    if_pos (by omega), hl]

/-! ### All vectors -/

theorem base100_callAll {o : Base100Ops q} (ho : Base100Right o) (hq : q % 2 = 0) (hq0 : 0 < q)
    (c : Cfg) : ∀ (vs : List (Vector (BitVec 8) (4 * q))) (out : List (BitVec 8)) (i : Nat),
    i ≤ out.length → out.length + 16 * q < c.usize →
    (do let (_, out, _) ← callAll (base100Body o c) (out, i) vs; ok out) =
      if i + 16 * q * vs.length ≤ out.length
      then ok (splice out i (vs.flatMap fun v => base100WrongVec v.toList)) else panic := by
  intro vs
  induction vs with
  | nil =>
    intro out i hi hu
    simp only [callAll, ok_bind, List.length_nil, Nat.mul_zero, Nat.add_zero, if_pos hi,
      List.flatMap_nil, splice_nil]
  | cons v vs ih =>
    intro out i hi hu
    simp only [callAll, base100Body_eq ho hq hq0 c out i v hi hu]
    have hm : 16 * q * (v :: vs).length = 16 * q + 16 * q * vs.length := by
      rw [List.length_cons, Nat.mul_succ]; omega
    rw [hm]
    have hwl := base100WrongVec_length v.toList
    simp only [Vector.length_toList] at hwl
    by_cases h : i + 16 * q ≤ out.length
    · have hl := splice_length out i (base100WrongVec v.toList) (by omega)
      have := ih (splice out i (base100WrongVec v.toList)) (i + 16 * q) (by omega) (by omega)
      rw [hl] at this
      rw [if_pos h]
      simp only [ok_bind, bind_assoc] at this ⊢
      rw [this]
      simp only [Nat.add_assoc, List.flatMap_cons]
      split
      · congr 1
        have hlen : (vs.flatMap fun v => base100WrongVec v.toList).length = 16 * q * vs.length := by
          rw [List.length_flatMap]
          rw [List.map_congr_left (g := fun _ => 16 * q) (fun v _ => by
            rw [base100WrongVec_length]; simp; omega)]
          simp [Nat.mul_comm]
        rw [splice_join _ _ _ _ _ (by omega) (by omega)]
      · rfl
    · rw [if_neg h, if_neg (by omega)]
      rfl

/-- **C99**, exact: what `base100_enc_simd` writes, for every input, every buffer and
every target. It needs room for `16 * q` bytes per vector and panics without. -/
theorem C99_simd {o : Base100Ops q} (ho : Base100Right o) (hq : q % 2 = 0) (hq0 : 0 < q)
    (c : Cfg) (fuel : Nat) (data out : List (BitVec 8))
    (hlen : data.length + 4 * q < c.usize) (hu : out.length + 16 * q < c.usize)
    (hfuel : data.length / (4 * q) < fuel) :
    base100Simd o c fuel data out =
      if 16 * q * ((data.length + (4 * q - 1)) / (4 * q)) ≤ out.length
      then ok (((calls (4 * q) (Packed.splat 0#8) data).flatMap fun v => base100WrongVec v.toList) ++
        out.drop (16 * q * ((data.length + (4 * q - 1)) / (4 * q))))
      else panic := by
  unfold base100Simd
  rw [C02_do_each_calls c fuel data _ _ _ (by omega) hlen hfuel]
  have hl := (C02_do_each_log c fuel data (Packed.splat 0#8 : Vector (BitVec 8) (4 * q))
    (by omega) hlen hfuel).2
  have h := base100_callAll ho hq hq0 c (calls (4 * q) (Packed.splat 0#8) data) out 0 (by omega) hu
  rw [hl, Nat.zero_add] at h
  simp only [bind_assoc, ok_bind] at h ⊢
  rw [h]
  have hlen' : ((calls (4 * q) (Packed.splat 0#8) data).flatMap fun v =>
      base100WrongVec v.toList).length = 16 * q * ((data.length + (4 * q - 1)) / (4 * q)) := by
    rw [List.length_flatMap, ← hl]
    rw [List.map_congr_left (g := fun _ => 16 * q) (fun v _ => by
      rw [base100WrongVec_length]; simp; omega)]
    simp [Nat.mul_comm]
  split
  · rw [splice_zero, hlen']
  · rfl

/-! ### The instances of the crate -/

/-- One version of an upcast: with the instruction of its row if `opt`, otherwise the
fallback. -/
def upVersion {n k w w' : Nat} (opt : Bool) (r : UpRow) (v : Vector (BitVec n) w) :
    Res (Vector (BitVec k) w' × Vector (BitVec k) w') :=
  match opt, r.mm with
  | true, some mm => upcastInstr (fun _ => 0#k) mm v
  | _, _ => upcastFallback (widen (fun _ => 0#k) r.kind r.toKind) r.first r.second v

/-- One version of a downcast. -/
def downVersion {n k w w' : Nat} (opt : Bool) (r : DownRow) (a b : Vector (BitVec n) w) :
    Res (Vector (BitVec k) w') :=
  match opt, r.mm with
  | true, some mm => downcastInstr mm a b
  | _, _ => downcastFallback r.kind r.lanes a b

/-- The operations of the crate for `u8x16` (`q = 4`) and `u8x32` (`q = 8`), each in the
optimized or in the fallback version. -/
def base100Of (q : Nat) (c : Cfg) (r8 r16 : UpRow) (rd : DownRow) (rs : ShuffleRow)
    (o8 o16 od os om : Bool) : Base100Ops q where
  up8 := upVersion o8 r8
  up16 := upVersion o16 r16
  down16 := downVersion od rd
  swap16 v := if os then ok (swapBytesShuffle rs.ctl v) else swapBytesFallback rs.idx v
  merge16 a b := if om then ok (mergeInterleavedBlend a b) else mergeInterleavedFallback c a b
  merge32 a b := if om then ok (mergeInterleavedBlend a b) else mergeInterleavedFallback c a b

theorem upVersion_ok {n k w w' : Nat} (opt : Bool) (r : UpRow) (hr : r ∈ upcastRows)
    (hk : r.kind = .u) (ht : r.toKind = .u) (hn : n = 8 * r.size) (hn' : k = 16 * r.size)
    (hw : w = r.width) (hw' : w' = r.width / 2) (v : Vector (BitVec n) w) :
    ∃ a b : Vector (BitVec k) w', upVersion opt r v = ok (a, b) ∧
      a.toList ++ b.toList = v.toList.map (BitVec.setWidth k) := by
  subst hn hn' hw hw'
  have e : ∀ l : List (BitVec (8 * r.size)), l.map (widen (fun _ => 0#_) r.kind r.toKind) =
      l.map (BitVec.setWidth (16 * r.size)) := by
    intro l
    rw [hk, ht]
    exact List.map_congr_left fun x _ => by simp [widen]
  rw [← e]
  unfold upVersion
  split
  · rename_i mm hm
    exact C45_order_optimized r hr mm hm _ v
  · exact C45_order_fallback r (List.mem_append_left _ hr) _ v

theorem downVersion_ok (opt : Bool) (r : DownRow) (hr : r ∈ downcastRows) (hk : r.kind = .u)
    (hs : r.size = 1) (a b : Vector (BitVec (16 * r.size)) r.width) :
    ∃ o : Vector (BitVec (8 * r.size)) (2 * r.width), downVersion opt r a b = ok o := by
  unfold downVersion
  split
  · rename_i mm hm
    rcases downcastRows_pack r hr with h | ⟨h | h, -⟩
    · rw [hm] at h; cases h
    · obtain ⟨o, h, -⟩ := C46_packus128_partial r hr mm hm h hk a b
      exact ⟨o, h⟩
    · obtain ⟨o, h, -⟩ := C46_pack256 r hr mm hm h a b
      exact ⟨o, h⟩
  · obtain ⟨o, h, -⟩ := C46_fallback_partial r (List.mem_append_left _ hr) (by simp [hk])
      (by omega) a b
    exact ⟨o, h⟩

/-- All versions of the operations satisfy what C99 needs. -/
theorem base100Of_right {q : Nat} (hq : q = 4 ∨ q = 8) (c : Cfg) (r8 r16 : UpRow) (rd : DownRow)
    (rs : ShuffleRow) (o8 o16 od os om : Bool) (h8 : r8 ∈ upcastRows) (h16 : r16 ∈ upcastRows)
    (hd : rd ∈ downcastRows) (hs : rs ∈ swapRows)
    (e8 : r8.kind = .u ∧ r8.toKind = .u ∧ r8.size = 1 ∧ r8.width = 4 * q)
    (e16 : r16.kind = .u ∧ r16.toKind = .u ∧ r16.size = 2 ∧ r16.width = 2 * q)
    (ed : rd.kind = .u ∧ rd.size = 1 ∧ rd.width = 2 * q)
    (es : rs.size = 2 ∧ rs.width = 2 * q) :
    Base100Right (base100Of q c r8 r16 rd rs o8 o16 od os om) where
  up8 v := upVersion_ok o8 r8 h8 e8.1 e8.2.1 (by omega) (by omega) (by omega) (by omega) v
  up16 v := upVersion_ok o16 r16 h16 e16.1 e16.2.1 (by omega) (by omega) (by omega) (by omega) v
  down16 a b := by
    have h := downVersion_ok od rd hd ed.1 ed.2.1
    obtain ⟨vec, dst, line, kind, toKind, size, width, gate, mm, lanes⟩ := rd
    obtain ⟨rfl, rfl, rfl⟩ := ed
    rcases hq with rfl | rfl <;> exact h a b
  swap16 v := by
    have h := C38_swap_bytes.1 rs hs
    obtain ⟨vec, line, size, width, ctl, idx⟩ := rs
    obtain ⟨rfl, rfl⟩ := es
    cases os
    · exact ⟨_, (h v).1⟩
    · exact ⟨_, rfl⟩
  merge16 a b := by
    cases om
    · exact C35_interleaved_fallback c (by omega) a b
    · exact congrArg ok (C35_interleaved_blend (s := 2) rfl (by omega) a b)
  merge32 a b := by
    cases om
    · exact C35_interleaved_fallback c (by omega) a b
    · exact congrArg ok (C35_interleaved_blend (s := 4) rfl (by omega) a b)

/-- Non-vacuity: the rows exist for both widths. -/
example : ∀ q ∈ [4, 8], (∃ r ∈ upcastRows, r.kind = .u ∧ r.toKind = .u ∧ r.size = 1 ∧ r.width = 4 * q ∧
      r.mm.isSome) ∧
    (∃ r ∈ upcastRows, r.kind = .u ∧ r.toKind = .u ∧ r.size = 2 ∧ r.width = 2 * q ∧ r.mm.isSome) ∧
    (∃ r ∈ downcastRows, r.kind = .u ∧ r.size = 1 ∧ r.width = 2 * q ∧ r.mm.isSome) ∧
    (∃ r ∈ swapRows, r.size = 2 ∧ r.width = 2 * q) := by decide +kernel

/-! ### The scalar version -/

theorem base100_length (data : List (BitVec 8)) : (base100 data).length = 4 * data.length := by
  unfold base100
  induction data with
  | nil => rfl
  | cons x l ih => simp only [List.flatMap_cons, List.length_append, ih, List.length_cons]; simp; omega

theorem splice_four {α : Type} (out : List α) (i : Nat) (a b c d : α) (h : i + 4 ≤ out.length) :
    (((out.set i a).set (i + 1) b).set (i + 2) c).set (i + 3) d = splice out i [a, b, c, d] := by
  apply List.ext_getElem?
  intro p
  rw [splice_getElem? _ _ _ (by simpa using h)]
  simp only [List.getElem?_set, List.length_set, List.length_cons, List.length_nil]
  by_cases h0 : p < i
  · simp [h0, show ¬ i = p by omega, show ¬ i + 1 = p by omega, show ¬ i + 2 = p by omega,
      show ¬ i + 3 = p by omega]
  · by_cases h4 : p < i + 4
    · have : p = i ∨ p = i + 1 ∨ p = i + 2 ∨ p = i + 3 := by omega
      rcases this with rfl | rfl | rfl | rfl <;> simp <;> omega
    · simp [h0, h4, show ¬ i = p by omega, show ¬ i + 1 = p by omega, show ¬ i + 2 = p by omega,
        show ¬ i + 3 = p by omega]

theorem base100ScalarLoop_eq (c : Cfg) : ∀ (data : List (BitVec 8)) (i : Nat) (out : List (BitVec 8)),
    4 * i ≤ out.length → 4 * i + 4 * data.length + out.length + 4 < c.usize →
    base100ScalarLoop c data i out = if 4 * (i + data.length) ≤ out.length
      then ok (splice out (4 * i) (base100 data)) else panic := by
  intro data
  induction data with
  | nil =>
    intro i out hi hu
    simp only [base100ScalarLoop, List.length_nil, Nat.add_zero, if_pos hi]
    simp [base100, splice_nil]
  | cons x l ih =>
    intro i out hi hu
    simp only [List.length_cons] at hu
    simp only [base100ScalarLoop, uadd_ok (show i + 1 < c.usize by omega),
      umul_ok (show 4 * i < c.usize by omega), ok_bind, uadd_ok (show 4 * i + 0 < c.usize by omega),
      uadd_ok (show 4 * i + 1 < c.usize by omega), uadd_ok (show 4 * i + 2 < c.usize by omega),
      uadd_ok (show 4 * i + 3 < c.usize by omega), Nat.add_zero, third_eq, fourth_eq]
    by_cases h : 4 * i + 4 ≤ out.length
    · simp only [indexSet, List.length_set, if_pos (show 4 * i < out.length by omega),
        if_pos (show 4 * i + 1 < out.length by omega), if_pos (show 4 * i + 2 < out.length by omega),
        if_pos (show 4 * i + 3 < out.length by omega), ok_bind]
      rw [splice_four _ _ _ _ _ _ h]
      have hl := splice_length out (4 * i) [0xf0#8, 0x9f#8, base100Third x, base100Fourth x] (by simpa using h)
      rw [ih _ _ (by omega) (by omega), hl, List.length_cons, show i + 1 + l.length = i + (l.length + 1) by omega]
      split
      · congr 1
        have hb := base100_length l
        rw [splice_join _ _ _ _ _ (by simp; omega) (by simp; omega)]
        rfl
      · rfl
    · rw [if_neg (by simp; omega)]
      unfold indexSet
      by_cases h0 : 4 * i < out.length
      · by_cases h1 : 4 * i + 1 < out.length
        · by_cases h2 : 4 * i + 2 < out.length
          · simp [h0, h1, h2, show ¬ 4 * i + 3 < out.length by omega]
          · simp [h0, h1, h2]
        · simp [h0, h1]
      · simp [h0]

/-- **C99**, scalar version: `base100_enc_scalar` writes the encoding; a buffer which
is too short makes it panic. -/
theorem C99_scalar (c : Cfg) (data out : List (BitVec 8))
    (hu : 4 * data.length + out.length + 4 < c.usize) :
    base100Scalar c data out = if 4 * data.length ≤ out.length
      then ok (base100 data ++ out.drop (4 * data.length)) else panic := by
  unfold base100Scalar
  rw [base100ScalarLoop_eq c data 0 out (by omega) (by omega), Nat.zero_add]
  split
  · rw [splice_zero, base100_length]
  · rfl

/-- The encoding of the character of the bench. -/
example : base100 [123#8] = [0xf0#8, 0x9f#8, 0x91#8, 0xb2#8] := by decide +kernel

/-! ### Comparison -/

theorem base100WrongVec_append (l m : List (BitVec 8)) (h : l.length % 2 = 0) :
    base100WrongVec (l ++ m) = base100WrongVec l ++ base100WrongVec m := by
  unfold base100WrongVec
  rw [List.mapIdx_append, List.flatten_append]
  congr 3
  funext i x
  unfold base100Wrong
  rw [show (i + l.length) % 2 = i % 2 by omega]

theorem base100WrongVec_lanes {w : Nat} (hw : w % 2 = 0) (vs : List (Vector (BitVec 8) w)) :
    (vs.flatMap fun v => base100WrongVec v.toList) = base100WrongVec (lanes vs) := by
  induction vs with
  | nil => rfl
  | cons v vs ih =>
    rw [List.flatMap_cons, ih, lanes_cons, base100WrongVec_append _ _ (by simpa using hw)]

theorem lanes_calls {α : Type} {w : Nat} (hw : 0 < w) (d : Vector α w) (l : List α)
    (h : l.length % w = 0) : lanes (calls w d l) = l := by
  unfold calls
  rw [if_pos h, List.append_nil]
  have := lanes_fullWindows hw l
  have hl : leftover w l = [] := by
    rw [← List.length_eq_zero_iff, leftover_length, h]
  rw [hl, List.append_nil] at this
  exact this

/-- **C99**, whole vectors: the bytes written, character by character. -/
theorem C99_simd_whole {o : Base100Ops q} (ho : Base100Right o) (hq : q % 2 = 0) (hq0 : 0 < q)
    (c : Cfg) (fuel : Nat) (data out : List (BitVec 8)) (hmul : data.length % (4 * q) = 0)
    (hlen : data.length + 4 * q < c.usize) (hu : out.length + 16 * q < c.usize)
    (hfuel : data.length / (4 * q) < fuel) (hfit : 4 * data.length ≤ out.length) :
    base100Simd o c fuel data out = ok ((data.mapIdx base100Wrong).flatten ++
      out.drop (4 * data.length)) := by
  have hdm := Nat.div_add_mod data.length (4 * q)
  have e : (data.length + (4 * q - 1)) / (4 * q) = data.length / (4 * q) := by
    rw [Nat.div_eq_of_lt_le] <;> rw [Nat.mul_comm] <;> grind
  have e' : 16 * q * (data.length / (4 * q)) = 4 * data.length := by
    have : 16 * q * (data.length / (4 * q)) = 4 * (4 * q * (data.length / (4 * q))) := by ring
    omega
  rw [C99_simd ho hq hq0 c fuel data out hlen hu hfuel, e, e', if_pos hfit,
    base100WrongVec_lanes (by omega), lanes_calls (by omega) _ _ hmul]
  rfl

theorem flatten_four_getElem? {β : Type} : ∀ (m : List (List β)), (∀ x ∈ m, x.length = 4) →
    ∀ k, m.flatten[4 * k]? = m[k]?.bind (·[0]?) := by
  intro m
  induction m with
  | nil => simp
  | cons x m ih =>
    intro h k
    have hx := h x (by simp)
    cases k with
    | zero => simp [List.getElem?_append_left (show 0 < x.length by omega)]
    | succ k =>
      rw [List.flatten_cons, List.getElem?_append_right (by omega), hx,
        show 4 * (k + 1) - 4 = 4 * k by omega, ih fun y hy => h y (by simp [hy])]
      simp

/-- **C99** is false, for every target and all data of whole vectors: the vector version
gets not a single character right. Already the first of its four bytes differs. -/
theorem C99_never_right {o : Base100Ops q} (ho : Base100Right o) (hq : q % 2 = 0) (hq0 : 0 < q)
    (c : Cfg) (fuel : Nat) (data out : List (BitVec 8)) (hmul : data.length % (4 * q) = 0)
    (hlen : data.length + 4 * q < c.usize) (hu : 4 * data.length + out.length + 16 * q < c.usize)
    (hfuel : data.length / (4 * q) < fuel) (hfit : 4 * data.length ≤ out.length) :
    ∃ a b, base100Simd o c fuel data out = ok a ∧ base100Scalar c data out = ok b ∧
      a.length = out.length ∧ b.length = out.length ∧
      ∀ k, k < data.length → a[4 * k]? ≠ b[4 * k]? := by
  have h1 := C99_simd_whole ho hq hq0 c fuel data out hmul hlen (by omega) hfuel hfit
  have h2 := C99_scalar c data out (by omega)
  rw [if_pos hfit] at h2
  have l1 := base100WrongVec_length data
  have l2 := base100_length data
  refine ⟨_, _, h1, h2, ?_, ?_, fun k hk => ?_⟩
  · simp only [base100WrongVec] at l1
    rw [List.length_append, l1, List.length_drop]; omega
  · rw [List.length_append, l2, List.length_drop]; omega
  · have e1 : (data.mapIdx base100Wrong).flatten.length = 4 * data.length := l1
    rw [List.getElem?_append_left (by omega), List.getElem?_append_left (by omega),
      flatten_four_getElem? _ (fun x hx => by
        obtain ⟨i, hi, rfl⟩ := List.mem_mapIdx.mp hx
        unfold base100Wrong
        split <;> rfl),
      base100, List.flatMap_def, flatten_four_getElem? _ (fun x hx => by
        obtain ⟨y, -, rfl⟩ := List.mem_map.mp hx
        rfl)]
    have f : ∀ y, base100Fourth y ≠ 0xf0#8 := by decide +kernel
    simp only [List.getElem?_mapIdx, List.getElem?_map, List.getElem?_eq_getElem hk, Option.map_some,
      Option.bind_some, base100Wrong]
    split
    · simp
    · simpa using f _

/-- The vector version loses information: the even characters do not matter at all and
of the odd ones only six bits do. -/
theorem C99_lossy {o : Base100Ops q} (ho : Base100Right o) (hq : q % 2 = 0) (hq0 : 0 < q)
    (c : Cfg) (fuel : Nat) (data data' out : List (BitVec 8)) (hmul : data.length % (4 * q) = 0)
    (hlen : data.length + 4 * q < c.usize) (hu : out.length + 16 * q < c.usize)
    (hfuel : data.length / (4 * q) < fuel) (hfit : 4 * data.length ≤ out.length)
    (hl : data'.length = data.length)
    (hodd : ∀ i (h : i < data.length), i % 2 = 1 →
      data[i].toNat % 64 = (data'[i]'(by omega)).toNat % 64) :
    base100Simd o c fuel data out = base100Simd o c fuel data' out := by
  rw [C99_simd_whole ho hq hq0 c fuel data out hmul hlen hu hfuel hfit,
    C99_simd_whole ho hq hq0 c fuel data' out (by rw [hl]; exact hmul) (by omega) hu (by rw [hl]; exact hfuel)
      (by omega), hl]
  congr 3
  apply List.ext_getElem
  · simp [hl]
  · intro i h1 h2
    have h1' : i < data.length := by simpa using h1
    simp only [List.getElem_mapIdx, base100Wrong]
    split
    · rfl
    · have := hodd i h1' (by omega)
      have e : base100Fourth data[i] = base100Fourth (data'[i]'(by omega)) := by
        unfold base100Fourth
        congr 1
        omega
      rw [e]

/-- **C99** is false on the data of the bench, whichever versions of the operations
are used, with `u8x16` and with `u8x32`. -/
theorem C99_false {q : Nat} (hq : q = 4 ∨ q = 8) (r8 r16 : UpRow) (rd : DownRow)
    (rs : ShuffleRow) (o8 o16 od os om : Bool) (h8 : r8 ∈ upcastRows) (h16 : r16 ∈ upcastRows)
    (hd : rd ∈ downcastRows) (hs : rs ∈ swapRows)
    (e8 : r8.kind = .u ∧ r8.toKind = .u ∧ r8.size = 1 ∧ r8.width = 4 * q)
    (e16 : r16.kind = .u ∧ r16.toKind = .u ∧ r16.size = 2 ∧ r16.width = 2 * q)
    (ed : rd.kind = .u ∧ rd.size = 1 ∧ rd.width = 2 * q)
    (es : rs.size = 2 ∧ rs.width = 2 * q) :
    base100Simd (base100Of q release64 r8 r16 rd rs o8 o16 od os om) release64 1025
      (List.replicate 1024 123#8) (List.replicate 4096 0#8) ≠
    base100Scalar release64 (List.replicate 1024 123#8) (List.replicate 4096 0#8) := by
  obtain ⟨a, b, h1, h2, -, -, h⟩ := C99_never_right
    (base100Of_right hq release64 r8 r16 rd rs o8 o16 od os om h8 h16 hd hs e8 e16 ed es)
    (by omega) (by omega) release64 1025 (List.replicate 1024 123#8) (List.replicate 4096 0#8)
    (by simp only [List.length_replicate]; rcases hq with rfl | rfl <;> decide)
    (by simp only [List.length_replicate]; rcases hq with rfl | rfl <;> decide)
    (by simp only [List.length_replicate]; rcases hq with rfl | rfl <;> decide)
    (by simp only [List.length_replicate]; rcases hq with rfl | rfl <;> decide)
    (by simp only [List.length_replicate]; decide)
  rw [h1, h2]
  intro hab
  injection hab with hab
  exact h 0 (by simp only [List.length_replicate]; decide) (by rw [hab])

end Faster
