import Verif.IntTests
import Verif.Props.FloatTests
import Verif.Props.FloatZip
import Verif.Props.FloatUse
import Verif.Props.IntCast
import Verif.Props.Sum
import Verif.Props.Popcnt
import Verif.Props.Horizontal
/-
C127: the unit tests of `src/intrin` on constant and alternating vectors, with any constants in
place of the literals.
-/
namespace Faster
open Res

variable {n w : Nat}

theorem assertSame_self {α : Type} [DecidableEq α] (a : α) : assertSame a a = ok () := by
  simp [assertSame, assert]

theorem assertSame_eq {α : Type} [DecidableEq α] (a b : α) :
    assertSame a b = if a = b then ok () else panic := by
  unfold assertSame assert
  by_cases h : a = b <;> simp [h]

/-! ### Horizontal operations -/

theorem hSpec_interleave {α β : Type} (f : α → α → β) (hw : w % 2 = 0) (a b p q : α) :
    hSpec f (interleave a b : Vector α w) (interleave p q) hw = interleave (f a b) (f p q) := by
  apply Vector.ext
  intro i hi
  simp only [hSpec, interleave, Vector.getElem_ofFn]
  by_cases h : i % 2 = 0
  · have h1 : (i + 1) % 2 ≠ 0 := by omega
    simp [h, h1]
  · have h1 : (i - 1) % 2 = 0 := by omega
    simp [h, h1]

theorem splat_interleave {α : Type} (x : α) : (Packed.splat x : Vector α w) = interleave x x := by
  apply Vector.ext
  intro i hi
  simp [Packed.splat, interleave]

theorem interleave_inj {α : Type} (hw : 2 ≤ w) {a b p q : α}
    (h : (interleave a b : Vector α w) = interleave p q) : a = p ∧ b = q := by
  have h0 := congrArg (fun v : Vector α w => v[0]'(by omega)) h
  have h1 := congrArg (fun v : Vector α w => v[1]'(by omega)) h
  simpa [interleave] using And.intro h0 h1

/-- C127: a version of a horizontal operation that follows `f` passes its test exactly when the
four literals are the results of `f`. -/
theorem C127_hop (f : BitVec n → BitVec n → BitVec n) (hw : w % 2 = 0) (h2 : 2 ≤ w)
    {h : Vector (BitVec n) w → Vector (BitVec n) w → Res (Vector (BitVec n) w)}
    (hf : ∀ a b, h a b = ok (hSpec f a b hw)) (x y x' y' a b p q r s : BitVec n) :
    hopTest h x y x' y' a b p q r s =
      if f x x = x' ∧ f y y = y' ∧ f a b = r ∧ f p q = s then ok () else panic := by
  unfold hopTest
  rw [hf, hf, splat_interleave x, splat_interleave y, hSpec_interleave, hSpec_interleave]
  simp only [Res.ok_bind, assertSame_eq]
  by_cases h1 : f x x = x' ∧ f y y = y'
  · obtain ⟨rfl, rfl⟩ := h1
    by_cases h3 : f a b = r ∧ f p q = s
    · obtain ⟨rfl, rfl⟩ := h3
      simp
    · have h4 : (interleave (f a b) (f p q) : Vector _ w) ≠ interleave r s :=
        fun e => h3 (interleave_inj h2 e)
      have h5 : ¬ (f x x = f x x ∧ f y y = f y y ∧ f a b = r ∧ f p q = s) := by tauto
      rw [if_neg h5]
      simp only [if_true, if_neg h4, Res.ok_bind]
  · have h4 : (interleave (f x x) (f y y) : Vector _ w) ≠ interleave x' y' :=
      fun e => h1 (interleave_inj h2 e)
    have h5 : ¬ (f x x = x' ∧ f y y = y' ∧ f a b = r ∧ f p q = s) := by tauto
    rw [if_neg h4, if_neg h5]
    rfl

theorem pairsFit_interleave (signed : Bool) (g : Int → Int → Int) (h2 : 2 ≤ w) (a b : BitVec n) :
    PairsFit signed g (interleave a b : Vector (BitVec n) w) ↔
      Fits signed n (g (num signed a) (num signed b)) := by
  have e : ∀ i (hi : i < w / 2), (interleave a b : Vector (BitVec n) w)[2 * i] = a ∧
      (interleave a b : Vector (BitVec n) w)[2 * i + 1] = b := by
    intro i hi
    constructor
    · simp [interleave]
    · simp only [interleave, Vector.getElem_ofFn]
      rw [if_neg (by omega)]
  unfold PairsFit
  constructor
  · intro h
    have h0 := h 0 (by omega)
    rw [(e 0 (by omega)).1, (e 0 (by omega)).2] at h0
    exact h0
  · intro h i hi
    rw [(e i hi).1, (e i hi).2]
    exact h

/-- The four pairs of a test of `hadd` or `hsub` stay in range. -/
def TestFits (signed : Bool) (g : Int → Int → Int) (x y a b p q : BitVec n) : Prop :=
  Fits signed n (g (num signed x) (num signed x)) ∧ Fits signed n (g (num signed y) (num signed y)) ∧
  Fits signed n (g (num signed a) (num signed b)) ∧ Fits signed n (g (num signed p) (num signed q))

theorem hopTest_pass {h : Vector (BitVec n) w → Vector (BitVec n) w → Res (Vector (BitVec n) w)}
    {x y x' y' a b p q r s : BitVec n} (h1 : h (interleave x x) (interleave y y) = ok (interleave x' y'))
    (h2 : h (interleave a b) (interleave p q) = ok (interleave r s)) :
    hopTest h x y x' y' a b p q r s = ok () := by
  unfold hopTest
  rw [splat_interleave x, splat_interleave y, h1, h2]
  simp [assertSame_eq]

theorem hopTest_panic {h : Vector (BitVec n) w → Vector (BitVec n) w → Res (Vector (BitVec n) w)}
    {x y x' y' a b p q r s : BitVec n}
    (h' : h (interleave x x) (interleave y y) = panic ∨
      h (interleave x x) (interleave y y) = ok (interleave x' y') ∧
      h (interleave a b) (interleave p q) = panic) :
    hopTest h x y x' y' a b p q r s = panic := by
  unfold hopTest
  rw [splat_interleave x, splat_interleave y]
  rcases h' with h' | ⟨h1, h2⟩
  · rw [h']; rfl
  · rw [h1, h2]; simp [assertSame_eq]

theorem hopRows_width : ∀ r ∈ haddRows ++ haddRowsUnknown ++ (hsubRows ++ hsubRowsUnknown) ++
    (satHaddRows ++ satHaddRowsUnknown) ++ (satHsubRows ++ satHsubRowsUnknown), 2 ≤ r.width := by
  decide +kernel

open Classical in
/-- C127: the test of `hadd`, on the fallback of every integer type with any six constants: it
passes, unless the build is checked and one of the four sums overflows. -/
theorem C127_hadd (c : Cfg) (r : HopRow) (hr : r ∈ haddRows ++ haddRowsUnknown) (hk : r.kind ≠ .f)
    (x y a b p q : BitVec (8 * r.size)) :
    hopTest (w := r.width) (hop (r.op.eval c r.kind) r.idx) x y (x + x) (y + y) a b p q (a + b) (p + q) =
      if c.debug = true ∧ ¬ TestFits r.kind.signed (· + ·) x y a b p q then panic else ok () := by
  have hw := (haddRows_facts r hr).2.2.1
  have h2 : 2 ≤ r.width := hopRows_width r (by simp only [List.mem_append] at hr ⊢; tauto)
  have exact_ : ∀ a b p q : BitVec (8 * r.size),
      Fits r.kind.signed (8 * r.size) (num r.kind.signed a + num r.kind.signed b) →
      Fits r.kind.signed (8 * r.size) (num r.kind.signed p + num r.kind.signed q) →
      hop (w := r.width) (r.op.eval c r.kind) r.idx (interleave a b) (interleave p q) =
        ok (interleave (a + b) (p + q)) := by
    intro a b p q h h'
    rw [(C40_hadd_exact c r hr hk hw _ _ ((pairsFit_interleave _ _ h2 a b).mpr h)
      ((pairsFit_interleave _ _ h2 p q).mpr h')).1, hSpec_interleave]
  have bad : c.debug = true → ∀ a b p q : BitVec (8 * r.size),
      ¬ (Fits r.kind.signed (8 * r.size) (num r.kind.signed a + num r.kind.signed b) ∧
        Fits r.kind.signed (8 * r.size) (num r.kind.signed p + num r.kind.signed q)) →
      hop (w := r.width) (r.op.eval c r.kind) r.idx (interleave a b) (interleave p q) = panic := by
    intro hc a b p q h
    refine C40_hadd_debug_overflow c hc r hr hk _ _ ?_
    rw [pairsFit_interleave _ _ h2, pairsFit_interleave _ _ h2]
    tauto
  by_cases hc : c.debug = true
  · by_cases hf : TestFits r.kind.signed (· + ·) x y a b p q
    · rw [if_neg (by tauto)]
      obtain ⟨f1, f2, f3, f4⟩ := hf
      exact hopTest_pass (exact_ _ _ _ _ f1 f2) (exact_ _ _ _ _ f3 f4)
    · rw [if_pos ⟨hc, hf⟩]
      apply hopTest_panic
      unfold TestFits at hf
      by_cases h1 : Fits r.kind.signed (8 * r.size) (num r.kind.signed x + num r.kind.signed x) ∧
          Fits r.kind.signed (8 * r.size) (num r.kind.signed y + num r.kind.signed y)
      · exact Or.inr ⟨exact_ _ _ _ _ h1.1 h1.2, bad hc _ _ _ _ (by tauto)⟩
      · exact Or.inl (bad hc _ _ _ _ h1)
  · rw [if_neg (by tauto)]
    have e := C40_hadd_release c (by simpa using hc) r hr hk hw
    apply hopTest_pass <;> rw [e, hSpec_interleave]

open Classical in
/-- C127: the test of `hsub` likewise. -/
theorem C127_hsub (c : Cfg) (r : HopRow) (hr : r ∈ hsubRows ++ hsubRowsUnknown) (hk : r.kind ≠ .f)
    (x y a b p q : BitVec (8 * r.size)) :
    hopTest (w := r.width) (hop (r.op.eval c r.kind) r.idx) x y 0 0 a b p q (a - b) (p - q) =
      if c.debug = true ∧ ¬ TestFits r.kind.signed (· - ·) x y a b p q then panic else ok () := by
  have hw := (hsubRows_facts r hr).2.2.1
  have h2 : 2 ≤ r.width := hopRows_width r (by simp only [List.mem_append] at hr ⊢; tauto)
  have exact_ : ∀ a b p q : BitVec (8 * r.size),
      Fits r.kind.signed (8 * r.size) (num r.kind.signed a - num r.kind.signed b) →
      Fits r.kind.signed (8 * r.size) (num r.kind.signed p - num r.kind.signed q) →
      hop (w := r.width) (r.op.eval c r.kind) r.idx (interleave a b) (interleave p q) =
        ok (interleave (a - b) (p - q)) := by
    intro a b p q h h'
    rw [(C40_hsub_exact c r hr hk hw _ _ ((pairsFit_interleave _ _ h2 a b).mpr h)
      ((pairsFit_interleave _ _ h2 p q).mpr h')).1, hSpec_interleave]
  have bad : c.debug = true → ∀ a b p q : BitVec (8 * r.size),
      ¬ (Fits r.kind.signed (8 * r.size) (num r.kind.signed a - num r.kind.signed b) ∧
        Fits r.kind.signed (8 * r.size) (num r.kind.signed p - num r.kind.signed q)) →
      hop (w := r.width) (r.op.eval c r.kind) r.idx (interleave a b) (interleave p q) = panic := by
    intro hc a b p q h
    refine C40_hsub_debug_overflow c hc r hr hk _ _ ?_
    rw [pairsFit_interleave _ _ h2, pairsFit_interleave _ _ h2]
    tauto
  have hself : ∀ x : BitVec (8 * r.size), (0 : BitVec (8 * r.size)) = x - x := fun x => by simp
  rw [hopTest.eq_def]
  rw [show interleave (0 : BitVec (8 * r.size)) 0 = interleave (x - x) (y - y) by simp]
  rw [← hopTest.eq_def]
  by_cases hc : c.debug = true
  · by_cases hf : TestFits r.kind.signed (· - ·) x y a b p q
    · rw [if_neg (by tauto)]
      obtain ⟨f1, f2, f3, f4⟩ := hf
      exact hopTest_pass (exact_ _ _ _ _ f1 f2) (exact_ _ _ _ _ f3 f4)
    · rw [if_pos ⟨hc, hf⟩]
      apply hopTest_panic
      unfold TestFits at hf
      by_cases h1 : Fits r.kind.signed (8 * r.size) (num r.kind.signed x - num r.kind.signed x) ∧
          Fits r.kind.signed (8 * r.size) (num r.kind.signed y - num r.kind.signed y)
      · exact Or.inr ⟨exact_ _ _ _ _ h1.1 h1.2, bad hc _ _ _ _ (by tauto)⟩
      · exact Or.inl (bad hc _ _ _ _ h1)
  · rw [if_neg (by tauto)]
    have e := C40_hsub_release c (by simpa using hc) r hr hk hw
    apply hopTest_pass <;> rw [e, hSpec_interleave]

/-- C127: the tests of `saturating_hadd` and `saturating_hsub`, on the fallback of every integer
type with any six constants, pass in every build if the literals are the nearest numbers in
range. -/
theorem C127_saturating (c : Cfg) (r : HopRow) (x y x' y' a b p q s t : BitVec (8 * r.size))
    (g : Int → Int → Int)
    (hg : r ∈ satHaddRows ++ satHaddRowsUnknown ∧ g = (· + ·) ∨
      r ∈ satHsubRows ++ satHsubRowsUnknown ∧ g = (· - ·))
    (hx : num r.kind.signed x' = nearest r.kind.signed (8 * r.size) (g (num r.kind.signed x) (num r.kind.signed x)))
    (hy : num r.kind.signed y' = nearest r.kind.signed (8 * r.size) (g (num r.kind.signed y) (num r.kind.signed y)))
    (hs : num r.kind.signed s = nearest r.kind.signed (8 * r.size) (g (num r.kind.signed a) (num r.kind.signed b)))
    (ht : num r.kind.signed t = nearest r.kind.signed (8 * r.size) (g (num r.kind.signed p) (num r.kind.signed q))) :
    hopTest (w := r.width) (hop (r.op.eval c r.kind) r.idx) x y x' y' a b p q s t = ok () := by
  have hw : r.width % 2 = 0 := by
    rcases hg with ⟨h, -⟩ | ⟨h, -⟩
    · exact (satHaddRows_facts r h).2.2.1
    · exact (satHsubRows_facts r h).2.2.1
  have key : ∀ a b p q s t : BitVec (8 * r.size),
      num r.kind.signed s = nearest r.kind.signed (8 * r.size) (g (num r.kind.signed a) (num r.kind.signed b)) →
      num r.kind.signed t = nearest r.kind.signed (8 * r.size) (g (num r.kind.signed p) (num r.kind.signed q)) →
      hop (w := r.width) (r.op.eval c r.kind) r.idx (interleave a b) (interleave p q) = ok (interleave s t) := by
    intro a b p q s t hs ht
    have hv : ∃ v, hop (w := r.width) (r.op.eval c r.kind) r.idx (interleave a b) (interleave p q) = ok v ∧
        v.map (num r.kind.signed) = hSpec (fun x y => nearest r.kind.signed (8 * r.size)
          (g (num r.kind.signed x) (num r.kind.signed y))) (interleave a b) (interleave p q) hw := by
      rcases hg with ⟨h, rfl⟩ | ⟨h, rfl⟩
      · exact C40_saturating_hadd c r h hw _ _
      · exact C40_saturating_hsub c r h hw _ _
    obtain ⟨v, h1, h2⟩ := hv
    rw [h1]
    congr 1
    rw [hSpec_interleave, ← hs, ← ht] at h2
    apply Vector.ext
    intro i hi
    have h3 := congrArg (fun u : Vector Int r.width => u[i]) h2
    simp only [Vector.getElem_map, interleave, Vector.getElem_ofFn] at h3 ⊢
    apply num_inj r.kind.signed
    rw [h3]
    split <;> rfl
  exact hopTest_pass (key _ _ _ _ _ _ hx hy) (key _ _ _ _ _ _ hs ht)

/-- C127: the optimized `hadd`, `hsub`, `saturating_hadd` and `saturating_hsub` of the 16-bit and
32-bit types pass the test with any six constants, in every build. -/
theorem C127_hop_optimized (f : BitVec 16 → BitVec 16 → BitVec 16) (x y a b p q : BitVec 16)
    (g : BitVec 32 → BitVec 32 → BitVec 32) (x' y' a' b' p' q' : BitVec 32) :
    hopTest (w := 8) (fun u v => ok (hopUnpack 8 f u v)) x y (f x x) (f y y) a b p q (f a b) (f p q) = ok () ∧
    hopTest (w := 16) (fun u v => ok (hopUnpack 8 f u v)) x y (f x x) (f y y) a b p q (f a b) (f p q) = ok () ∧
    hopTest (w := 4) (fun u v => ok (hopUnpack 4 g u v)) x' y' (g x' x') (g y' y') a' b' p' q' (g a' b') (g p' q') =
      ok () ∧
    hopTest (w := 8) (fun u v => ok (hopUnpack 4 g u v)) x' y' (g x' x') (g y' y') a' b' p' q' (g a' b') (g p' q') =
      ok () := by
  refine ⟨?_, ?_, ?_, ?_⟩
  · rw [C127_hop f (w := 8) rfl (by omega) (fun a b => by rw [C40_optimized_i16x8]), if_pos ⟨rfl, rfl, rfl, rfl⟩]
  · rw [C127_hop f (w := 16) rfl (by omega) (fun a b => by rw [C40_optimized_i16x16]), if_pos ⟨rfl, rfl, rfl, rfl⟩]
  · rw [C127_hop g (w := 4) rfl (by omega) (fun a b => by rw [C40_optimized_i32x4]), if_pos ⟨rfl, rfl, rfl, rfl⟩]
  · rw [C127_hop g (w := 8) rfl (by omega) (fun a b => by rw [C40_optimized_i32x8]), if_pos ⟨rfl, rfl, rfl, rfl⟩]

/-- Non-vacuity: the literals of the tests (`1, 2, 2, 4; 1, 2, 3, 4, 3, 7`). -/
example : TestFits true (· + ·) 1#8 2#8 1#8 2#8 3#8 4#8 ∧ ¬ TestFits true (· + ·) 100#8 2#8 1#8 2#8 3#8 4#8 := by
  unfold TestFits Fits; decide

/-! ### upcast -/

theorem upcast_halves {α β : Type} (hw : (w / 2) % 2 = 0) (h2 : w % 2 = 0) (g : α → β) (x y : α) (u v : Vector β (w / 2))
    (h : u.toList ++ v.toList = (interleave x y : Vector α w).toList.map g) :
    u = interleave (g x) (g y) ∧ v = interleave (g x) (g y) := by
  have key : ∀ i (hi : i < w), (u.toList ++ v.toList)[i]? = some (if i % 2 = 0 then g x else g y) := by
    intro i hi
    rw [h]
    simp only [List.getElem?_map, Vector.getElem?_toList, Vector.getElem?_eq_getElem hi, Option.map_some,
      interleave, Vector.getElem_ofFn]
    split <;> rfl
  constructor
  · apply Vector.ext
    intro i hi
    have := key i (by omega)
    rw [List.getElem?_append_left (by simpa using hi)] at this
    simp only [Vector.getElem?_toList, Vector.getElem?_eq_getElem hi, Option.some.injEq] at this
    simpa [interleave] using this
  · apply Vector.ext
    intro i hi
    have := key (w / 2 + i) (by omega)
    rw [List.getElem?_append_right (by simp)] at this
    simp only [Vector.length_toList, Nat.add_sub_cancel_left, Vector.getElem?_toList,
      Vector.getElem?_eq_getElem hi, Option.some.injEq] at this
    rw [this]
    simp only [interleave, Vector.getElem_ofFn]
    have e : (w / 2 + i) % 2 = i % 2 := by omega
    rw [e]

theorem upRows_width : ∀ r ∈ upcastRows ++ upcastRowsUnknown, (r.width / 2) % 2 = 0 ∧ r.width % 2 = 0 := by
  decide +kernel

/-- C127: the tests of `upcast`, with any two constants, on all versions of all types. -/
theorem C127_upcast (r : UpRow) (conv : BitVec (8 * r.size) → BitVec (16 * r.size)) (x y : BitVec (8 * r.size)) :
    (r ∈ upcastRows ++ upcastRowsUnknown →
      upcastTest (upcastFallback (w := r.width) (widen conv r.kind r.toKind) r.first r.second) x y
        (widen conv r.kind r.toKind x) (widen conv r.kind r.toKind y) = ok ()) ∧
    (r ∈ upcastRows → ∀ mm, r.mm = some mm →
      upcastTest (upcastInstr (w := r.width) conv mm) x y
        (widen conv r.kind r.toKind x) (widen conv r.kind r.toKind y) = ok ()) := by
  constructor
  · intro hr
    obtain ⟨u, v, h1, h2⟩ := C45_order_fallback r hr conv (interleave x y)
    obtain ⟨hw, hw'⟩ := upRows_width r hr
    obtain ⟨rfl, rfl⟩ := upcast_halves hw hw' _ x y u v h2
    unfold upcastTest
    simp [h1, assertSame_eq]
  · intro hr mm hm
    obtain ⟨u, v, h1, h2⟩ := C45_order_optimized r hr mm hm conv (interleave x y)
    obtain ⟨hw, hw'⟩ := upRows_width r (List.mem_append_left _ hr)
    obtain ⟨rfl, rfl⟩ := upcast_halves hw hw' _ x y u v h2
    unfold upcastTest
    simp [h1, assertSame_eq]

/-! ### abs -/

theorem absTest_pass {abs : Vector (BitVec n) w → Res (Vector (BitVec n) w)} (hw : 0 < w) (h0 : 0 < n)
    (ha : ∀ x, abs (Packed.splat x) = ok (Packed.splat (BitVec.ofNat _ x.toInt.natAbs))) (k : Nat) (i : Int)
    (hi : -2 ^ (n - 1) ≤ i) (hk : i + k ≤ 2 ^ (n - 1)) : absTest abs k i = ok () := by
  induction k generalizing i with
  | zero => rfl
  | succ k ih =>
    have ht : (BitVec.ofInt n i).toInt = i := Kind.value_ofInt .i h0 (by
      simp only [Kind.lo, Kind.hi]; push_cast at hk; omega)
    simp only [absTest, ha, ht, Res.ok_bind, Packed.extract, dif_pos hw]
    rw [show (Packed.splat (BitVec.ofNat n i.natAbs) : Vector _ w)[0] = BitVec.ofNat n i.natAbs by
      simp [Packed.splat], assertSame_self]
    exact ih (i + 1) (by omega) (by push_cast at hk ⊢; omega)

/-- C127: the tests of `abs` for signed integers, for any range of numbers of the type, on all
versions of all types. -/
theorem C127_abs (r : AbsRow) (hk : r.kind = .i) (k : Nat) (i : Int) (hi : -2 ^ (8 * r.size - 1) ≤ i)
    (hik : i + k ≤ 2 ^ (8 * r.size - 1)) :
    (r ∈ absRows ∨ r ∈ absRowsUnknown → absTest (n := 8 * r.size) (w := r.width) (absFallback r.kind r.idx) k i = ok ()) ∧
    (r ∈ absRows → ∀ mm, r.mm = some mm → absTest (n := 8 * r.size) (w := r.width) (absOptimized mm r.mask) k i = ok ()) := by
  have hf : ∀ r ∈ absRows ++ absRowsUnknown, 0 < r.width ∧ 0 < r.size := by decide +kernel
  constructor
  · intro hr
    obtain ⟨hw, h0⟩ := hf r (List.mem_append.mpr hr)
    exact absTest_pass hw (by omega) (fun x => (C115_abs r hk x).1 hr) k i hi hik
  · intro hr mm hm
    obtain ⟨hw, h0⟩ := hf r (List.mem_append_left _ hr)
    exact absTest_pass hw (by omega) (fun x => (C115_abs r hk x).2 hr mm hm) k i hi hik

/-! ### popcnt -/

theorem vecOnes_splat (x : BitVec n) : vecOnes (Packed.splat x : Vector (BitVec n) w) = w * onesOf x := by
  simp [vecOnes, Packed.splat]

/-- C127: a `count_ones` that counts the set bits passes `test_popcnt!`. -/
theorem C127_popcnt (c : Cfg) {size : Nat} (hn : n = size * 8) (hs : 0 < size) (hu : w * size * 8 < c.usize)
    {ones : Vector (BitVec n) w → Res Nat} (ho : ∀ v, ones v = ok (vecOnes v)) :
    popTest c size ones = ok () := by
  have h1 : onesOf 1#n = 1 := by
    obtain ⟨m, rfl⟩ : ∃ m, n = m + 1 := ⟨n - 1, by omega⟩
    unfold onesOf
    rw [List.range_succ_eq_map, List.countP_cons_of_pos (by simp)]
    simp [List.countP_eq_zero]
  have h2 : onesOf (~~~ 0#n) = n := by
    unfold onesOf
    have : (List.range n).countP (fun k => (~~~ 0#n).getLsbD k) = (List.range n).length := by
      rw [List.countP_eq_length]
      intro k hk
      simpa using hk
    simpa using this
  have z := fun v => C43_count_zeroes (c := c) hn hu v rfl
  have hwn : w * n = w * size * 8 := by rw [hn, Nat.mul_assoc]
  have s1 := ones_add_zeros (Packed.splat 1#n : Vector (BitVec n) w)
  have s2 := ones_add_zeros (Packed.splat (~~~ 0#n) : Vector (BitVec n) w)
  rw [vecOnes_splat, h1, Nat.mul_one] at s1
  rw [vecOnes_splat, h2] at s2
  have h8 : w * size ≤ w * size * 8 := Nat.le_mul_of_pos_right _ (by omega)
  unfold popTest
  simp only [ho, Res.ok_bind, vecOnes_splat, h1, h2, Nat.mul_one, assertSame_self]
  have z1 := z (Packed.splat 1#n)
  have z2 := z (Packed.splat (~~~ 0#n))
  rw [vecOnes_splat, h1, Nat.mul_one] at z1
  rw [vecOnes_splat, h2] at z2
  rw [z1, z2]
  simp only [Res.ok_bind]
  rw [uadd_ok (by omega)]
  simp only [Res.ok_bind]
  rw [umul_ok (by omega)]
  simp only [Res.ok_bind]
  rw [umul_ok (by omega)]
  simp only [Res.ok_bind]
  rw [show vecZeros (Packed.splat 1#n : Vector (BitVec n) w) + w = w * size * 8 by omega,
    show vecZeros (Packed.splat (~~~ 0#n) : Vector (BitVec n) w) = 0 by omega, hwn]
  simp only [assertSame_self, Res.ok_bind]

/-- C127: so do the SSSE3 and AVX2 versions and the fallback, for vectors of any lane type. -/
theorem C127_popcnt_versions (c : Cfg) {size b : Nat} {idx : List Nat} (hn : n = size * 8) (hs : 0 < size)
    (hu : 512 < c.usize) (hb : w * n = b * 8) (hb' : b ≤ 64) :
    (PopWidth b idx → popTest c size
      (fun v : Vector (BitVec n) w => popcntShuffle c idx (reinterpret v : Vector (BitVec 8) b)) = ok ()) ∧
    (b % 8 = 0 → popTest c size
      (fun v : Vector (BitVec n) w => popcntFallback c (reinterpret v : Vector (BitVec 8) b)) = ok ()) := by
  have e : w * size * 8 = b * 8 := by rw [← hb, hn, Nat.mul_assoc]
  exact ⟨fun hp => C127_popcnt c hn hs (by omega) fun v => C43_optimized hp (by omega) hb v,
    fun h8 => C127_popcnt c hn hs (by omega) fun v => C43_fallback h8 (by omega) hb v⟩

/-- Non-vacuity: the test rejects a `count_ones` that counts nothing. -/
example : popTest debug64 1 (fun _ : Vector (BitVec 8) 16 => ok 0) = panic := by decide +kernel

/-! ### sum -/

/-- The versions of `sum` of integer types: the fallback, and the optimized versions of
src/arch/x86/intrin/sum.rs. -/
inductive IsSum (c : Cfg) : (k : Kind) → (n w : Nat) → (Vector (BitVec n) w → Res (BitVec n)) → Prop
  | fallback (k n w) : IsSum c k n w (sumFallback c k)
  | u8x16 : IsSum c .u 8 16 (sumU8 c [0, 4])
  | u8x32 : IsSum c .u 8 32 (sumU8 c [0, 4, 8, 12])
  | i8x16 (o) (ho : I8Correct o) : IsSum c .i 8 16 (sumI8 o [0, 4])
  | i8x32 (o) (ho : I8Correct o) : IsSum c .i 8 32 (sumI8 o [0, 4, 8, 12])
  | i16x8 : IsSum c .i 16 8 sumI16x8
  | i16x16 : IsSum c .i 16 16 (sumI16x16 c)
  | i32x8 : IsSum c .i 32 8 (sumI32x8 c)
  | u16x16 (up) (hup : UpCorrect false up) : IsSum c .u 16 16 (sumU16x16 c up)

/-- The versions of `sum_upcast` of integer types. -/
inductive IsSumUpcast (c : Cfg) :
    (k : Kind) → (n w : Nat) → (Vector (BitVec n) w → Res (BitVec 64)) → Prop
  | fallback (k n w) : IsSumUpcast c k n w (sumUpcastFallback c k)
  | u8x16 : IsSumUpcast c .u 8 16 (sumUpcastU8 c [0, 4])
  | u8x32 : IsSumUpcast c .u 8 32 (sumUpcastU8 c [0, 4, 8, 12])
  | i8x16 (o) (ho : I8Correct o) : IsSumUpcast c .i 8 16 (sumUpcastI8 o [0, 4])
  | i8x32 (o) (ho : I8Correct o) : IsSumUpcast c .i 8 32 (sumUpcastI8 o [0, 4, 8, 12])
  | i16x16 (up) (hup : UpCorrect true up) : IsSumUpcast c .i 16 16 (sumUpcast16x16 c up)
  | u16x16 (up) (hup : UpCorrect false up) : IsSumUpcast c .u 16 16 (sumUpcast16x16 c up)

theorem total_splat (signed : Bool) (x : BitVec n) :
    total signed (Packed.splat x : Vector (BitVec n) w) = w * num signed x := by
  simp [total, Packed.splat]

theorem fits_mul (signed : Bool) (h0 : 0 < n) {j w : Nat} (hj : j ≤ w) (a : Int) (h : Fits signed n (w * a)) :
    Fits signed n (j * a) := by
  have e := fits_iff (if signed then Kind.i else .u) h0 (n := n)
  have es : (if signed then Kind.i else .u).signed = signed := by cases signed <;> rfl
  rw [es] at e
  rw [e] at h ⊢
  have hp := two_pow_pred (n := n) h0
  have h1 : (0 : Int) < 2 ^ (n - 1) := by positivity
  have hl : (if signed then Kind.i else .u).lo n ≤ 0 ∧ 0 ≤ (if signed then Kind.i else .u).hi n := by
    cases signed <;> simp only [Kind.lo, Kind.hi] <;> constructor <;> simp <;> omega
  have hj' : (j : Int) ≤ w := by exact_mod_cast hj
  rcases le_total 0 a with ha | ha
  · have h2 : (j : Int) * a ≤ w * a := mul_le_mul_of_nonneg_right hj' ha
    have h3 : 0 ≤ (j : Int) * a := by positivity
    omega
  · have h2 : (w : Int) * a ≤ j * a := mul_le_mul_of_nonpos_right hj' ha
    have h3 : (j : Int) * a ≤ 0 := mul_nonpos_of_nonneg_of_nonpos (by positivity) ha
    omega

theorem sumPrefix_splat (signed : Bool) (x : BitVec n) {j : Nat} (hj : j ≤ w) :
    (((Packed.splat x : Vector (BitVec n) w).toList.take j).map (num signed)).sum = j * num signed x := by
  simp [Packed.splat, Nat.min_eq_left hj]

theorem sumSuffix_splat (signed : Bool) (x : BitVec n) {j : Nat} :
    (((Packed.splat x : Vector (BitVec n) w).toList.drop j).map (num signed)).sum = (w - j : Nat) * num signed x := by
  simp [Packed.splat]

/-- On a constant vector whose sum is in range, every version of `sum` is the sum. -/
theorem sum_splat {c : Cfg} {k : Kind} {sum : Vector (BitVec n) w → Res (BitVec n)} (hs : IsSum c k n w sum)
    (h0 : 0 < n) (x : BitVec n) (hx : c.debug = false ∨ Fits k.signed n (w * num k.signed x)) :
    sum (Packed.splat x) = ok (BitVec.ofInt n (total k.signed (Packed.splat x : Vector (BitVec n) w))) := by
  cases hs with
  | fallback =>
    rcases hx with hx | hx
    · exact C41_fallback_release c hx k _
    · refine C41_fallback_fits c k h0 _ fun j hj => ?_
      rw [sumPrefix_splat _ _ hj]
      exact fits_mul _ h0 hj _ hx
  | u8x16 => exact C41_u8x16 c _
  | u8x32 => exact C41_u8x32 c _
  | i8x16 o ho => exact C41_i8x16 ho _
  | i8x32 o ho => exact C41_i8x32 ho _
  | i16x8 => exact C41_i16x8 _
  | i16x16 =>
    refine C41_i16x16_partial c _ (hx.imp_right fun hx => ⟨?_, ?_, ?_⟩)
    · rw [sumPrefix_splat _ _ (by omega)]; exact fits_mul _ h0 (by omega) _ hx
    · rw [sumSuffix_splat]; exact fits_mul _ h0 (by omega) _ hx
    · rw [total_splat]; exact hx
  | i32x8 =>
    refine C41_i32x8_partial c _ (hx.imp_right fun hx => ⟨?_, ?_, ?_⟩)
    · rw [sumPrefix_splat _ _ (by omega)]; exact fits_mul _ h0 (by omega) _ hx
    · rw [sumSuffix_splat]; exact fits_mul _ h0 (by omega) _ hx
    · rw [total_splat]; exact hx
  | u16x16 up hup => exact C41_u16x16 c hup _

theorem sumUpcastFallback_splat {c : Cfg} {k : Kind} (x : BitVec n)
    (hx : c.debug = false ∨ Fits true 64 (w * (asI64 k x).toInt)) :
    sumUpcastFallback c k (Packed.splat x : Vector (BitVec n) w) =
      ok (BitVec.ofInt 64 (w * (asI64 k x).toInt)) := by
  have e : ((Packed.splat x : Vector (BitVec n) w).toList.map (asI64 k)).sum =
      BitVec.ofInt 64 (w * (asI64 k x).toInt) := by
    have : (Packed.splat x : Vector (BitVec n) w).toList.map (asI64 k) =
        (Packed.splat (asI64 k x) : Vector (BitVec 64) w).toList := by simp [Packed.splat]
    rw [this, ← ofInt_total true, total_splat]
    rfl
  unfold sumUpcastFallback
  rw [C53_scalar_reduce]
  rcases hx with hx | hx
  · have := foldlM_check_release c hx .i (asI64 k) (Packed.splat x : Vector (BitVec n) w).toList 0#64
    simp only [Kind.value] at this
    rw [this, e]
    simp
  · have := foldlM_check_fits c .i (by omega) (asI64 k) (Packed.splat x : Vector (BitVec n) w).toList 0#64
    simp only [Kind.value] at this
    rw [this, e]
    · simp
    · intro j _ hj
      have hj' : j ≤ w := by simpa using hj
      have h1 := fits_mul true (n := 64) (by omega) hj' _ hx
      rw [show true = Kind.i.signed from rfl, fits_iff .i (by omega)] at h1
      simpa [Packed.splat, Nat.min_eq_left hj'] using h1

/-- `s as i64` keeps the number, except for unsigned numbers from `2^63`. -/
theorem asI64_num (k : Kind) (hn : n ≤ 64) (x : BitVec n) (h : n < 64 ∨ Fits true 64 (num k.signed x)) :
    (asI64 k x).toInt = num k.signed x := by
  by_cases h64 : n < 64
  · rw [asI64_toInt k h64, num_eq]
  · obtain rfl : n = 64 := by omega
    have hf := h.resolve_left h64
    rw [show true = Kind.i.signed from rfl, fits_iff .i (by omega)] at hf
    simp only [Kind.lo, Kind.hi] at hf
    unfold asI64
    cases k with
    | i => simp [num, Kind.signed]
    | u =>
      simp only [num, Kind.signed, Bool.false_eq_true, if_false] at hf ⊢
      rw [if_neg (by simp)]
      simp only [BitVec.setWidth_eq]
      rw [BitVec.toInt_eq_toNat_of_lt (by omega)]
    | f =>
      simp only [num, Kind.signed, Bool.false_eq_true, if_false] at hf ⊢
      rw [if_neg (by simp)]
      simp only [BitVec.setWidth_eq]
      rw [BitVec.toInt_eq_toNat_of_lt (by omega)]

theorem fits64 (signed : Bool) (hn : n ≤ 32) (h0 : 0 < n) (hw : w ≤ 2 ^ 31) (x : BitVec n) :
    Fits true 64 (w * num signed x) := by
  rw [show true = Kind.i.signed from rfl, fits_iff .i (by omega)]
  have es : (if signed then Kind.i else .u).signed = signed := by cases signed <;> rfl
  have hb := Kind.value_bounds (if signed then Kind.i else .u) h0 x
  rw [← num_eq, es] at hb
  have hp : (2 : Int) ^ n ≤ 2 ^ 32 := by
    have : 2 ^ n ≤ 2 ^ 32 := Nat.pow_le_pow_right (by omega) hn
    exact_mod_cast this
  have hq := two_pow_pred (n := n) h0
  have h1 : (0 : Int) < 2 ^ (n - 1) := by positivity
  have hx : -2 ^ 31 ≤ num signed x ∧ num signed x ≤ 2 ^ 32 - 1 := by
    cases signed <;> simp only [Kind.lo, Kind.hi, if_true, Bool.false_eq_true, if_false] at hb <;> omega
  have hw' : (w : Int) ≤ 2 ^ 31 := by exact_mod_cast hw
  have hw0 : (0 : Int) ≤ w := by positivity
  have h3 : (w : Int) * (-2 ^ 31) ≤ w * num signed x := mul_le_mul_of_nonneg_left hx.1 hw0
  have h4 : (w : Int) * num signed x ≤ w * (2 ^ 32 - 1) := mul_le_mul_of_nonneg_left hx.2 hw0
  simp only [Kind.lo, Kind.hi]
  constructor <;> omega

theorem ofInt64_eq {r : BitVec 64} {a : Int} (h : r.toInt = a) : r = BitVec.ofInt 64 a := by
  rw [← h, BitVec.ofInt_toInt]

/-- On a constant vector whose sum is in range, every version of `sum_upcast` is the sum. -/
theorem sumUpcast_splat {c : Cfg} {k : Kind} {up : Vector (BitVec n) w → Res (BitVec 64)}
    (hs : IsSumUpcast c k n w up) (h0 : 0 < n) (hn : n ≤ 32 ∨ n = 64) (hw0 : 0 < w) (hw : w ≤ 2 ^ 31)
    (x : BitVec n) (hx : Fits k.signed n (w * num k.signed x)) (h64 : n = 64 → Fits true 64 (w * num k.signed x)) :
    up (Packed.splat x) = ok (BitVec.ofInt 64 (w * num k.signed x)) := by
  cases hs with
  | fallback =>
    have hf : Fits true 64 (w * num k.signed x) := hn.elim (fun h => fits64 _ h h0 hw x) h64
    have h1 : Fits true 64 (num k.signed x) := by
      simpa using fits_mul true (n := 64) (by omega) (j := 1) hw0 _ hf
    have e := asI64_num k (by omega) x (Or.inr h1)
    rw [sumUpcastFallback_splat x (Or.inr (by rw [e]; exact hf)), e]
  | u8x16 =>
    obtain ⟨r, h1, h2⟩ := C42_u8x16 c (Packed.splat x)
    rw [h1, ofInt64_eq h2, total_splat]; rfl
  | u8x32 =>
    obtain ⟨r, h1, h2⟩ := C42_u8x32 c (Packed.splat x)
    rw [h1, ofInt64_eq h2, total_splat]; rfl
  | i8x16 o ho =>
    obtain ⟨r, h1, -, h2⟩ := C42_i8x16 ho (Packed.splat x)
    rw [fits_iff .i (by omega)] at hx
    rw [total_splat] at h2
    simp only [Kind.lo, Kind.hi] at hx
    rw [h1, ofInt64_eq (h2.mpr (by simp only [Kind.signed] at hx; omega))]; rfl
  | i8x32 o ho =>
    obtain ⟨r, h1, -, h2⟩ := C42_i8x32 ho (Packed.splat x)
    rw [fits_iff .i (by omega)] at hx
    rw [total_splat] at h2
    simp only [Kind.lo, Kind.hi] at hx
    rw [h1, ofInt64_eq (h2.mpr (by simp only [Kind.signed] at hx; omega))]; rfl
  | i16x16 up hup =>
    obtain ⟨r, h1, h2⟩ := C42_16x16 c true hup (Packed.splat x)
    rw [h1, ofInt64_eq h2, total_splat]; rfl
  | u16x16 up hup =>
    obtain ⟨r, h1, h2⟩ := C42_16x16 c false hup (Packed.splat x)
    rw [h1, ofInt64_eq h2, total_splat]; rfl

/-- C127: the body of the integer sum tests passes in every build, for every version of `sum` and
`sum_upcast` and every constant whose sum is in range. -/
theorem C127_sum_partial {c : Cfg} {k : Kind} {sum : Vector (BitVec n) w → Res (BitVec n)}
    {up : Vector (BitVec n) w → Res (BitVec 64)} (hs : IsSum c k n w sum) (hu : IsSumUpcast c k n w up)
    (h0 : 0 < n) (hn : n ≤ 32 ∨ n = 64) (hw0 : 0 < w) (hw : w ≤ 2 ^ 31) (x : BitVec n)
    (hx : Fits k.signed n (w * num k.signed x)) (h64 : n = 64 → Fits true 64 (w * num k.signed x)) :
    sumBody c k sum up x = ok () := by
  have h1 := sum_splat hs h0 x (Or.inr hx)
  have h2 := sum_splat (.fallback k n w) (c := c) h0 x (Or.inr hx)
  have h3 := sumUpcast_splat hu h0 hn hw0 hw x hx h64
  have h4 := sumUpcast_splat (.fallback k n w) (c := c) h0 hn hw0 hw x hx h64
  unfold sumFallback at h2
  unfold sumUpcastFallback at h4
  unfold sumBody
  rw [h1, h2, h3, h4]
  simp [assertSame_eq]

/-- C127: in release builds it passes for every constant, whatever the sum, on every version but
the SSE2 and AVX2 `sum_upcast` of `i8x16` and `i8x32`. -/
theorem C127_sum_release {c : Cfg} (hc : c.debug = false) {k : Kind}
    {sum : Vector (BitVec n) w → Res (BitVec n)} {up : Vector (BitVec n) w → Res (BitVec 64)}
    (hs : IsSum c k n w sum) (hu : IsSumUpcast c k n w up) (h0 : 0 < n) (hn : n ≤ 32 ∨ n = 64)
    (hw : w ≤ 2 ^ 31) (hi : up = sumUpcastFallback c k ∨ ¬ (k = .i ∧ n = 8)) (x : BitVec n) :
    sumBody c k sum up x = ok () := by
  have h1 := sum_splat hs h0 x (Or.inl hc)
  have h2 := sum_splat (.fallback k n w) (c := c) h0 x (Or.inl hc)
  have h4 := sumUpcastFallback_splat (w := w) (c := c) (k := k) x (Or.inl hc)
  have h3 : up (Packed.splat x) = ok (BitVec.ofInt 64 (w * (asI64 k x).toInt)) := by
    cases hu with
    | fallback => exact h4
    | u8x16 =>
      obtain ⟨r, h1, h2⟩ := C42_u8x16 c (Packed.splat x)
      rw [h1, ofInt64_eq h2, total_splat, asI64_num .u (by omega) x (Or.inl (by omega))]; rfl
    | u8x32 =>
      obtain ⟨r, h1, h2⟩ := C42_u8x32 c (Packed.splat x)
      rw [h1, ofInt64_eq h2, total_splat, asI64_num .u (by omega) x (Or.inl (by omega))]; rfl
    | i8x16 o ho => rcases hi with hi | hi
                    · rw [hi]; exact h4
                    · exact absurd ⟨rfl, rfl⟩ hi
    | i8x32 o ho => rcases hi with hi | hi
                    · rw [hi]; exact h4
                    · exact absurd ⟨rfl, rfl⟩ hi
    | i16x16 up hup =>
      obtain ⟨r, h1, h2⟩ := C42_16x16 c true hup (Packed.splat x)
      rw [h1, ofInt64_eq h2, total_splat, asI64_num .i (by omega) x (Or.inl (by omega))]; rfl
    | u16x16 up hup =>
      obtain ⟨r, h1, h2⟩ := C42_16x16 c false hup (Packed.splat x)
      rw [h1, ofInt64_eq h2, total_splat, asI64_num .u (by omega) x (Or.inl (by omega))]; rfl
  unfold sumFallback at h2
  unfold sumUpcastFallback at h4
  unfold sumBody
  rw [h1, h2, h3, h4]
  simp [assertSame_eq]

/-- C127 is false for the SSE2 and AVX2 `sum_upcast` of `i8x16` and `i8x32`: in release builds the
body passes exactly if the sum fits in an `i8`. -/
theorem C127_sum_i8 {c : Cfg} (hc : c.debug = false) {sum16 : Vector (BitVec 8) 16 → Res (BitVec 8)}
    {sum32 : Vector (BitVec 8) 32 → Res (BitVec 8)} (hs : IsSum c .i 8 16 sum16) (hs' : IsSum c .i 8 32 sum32)
    {o : I8Ops 16} (ho : I8Correct o) {o' : I8Ops 32} (ho' : I8Correct o') (x : BitVec 8) :
    sumBody c .i sum16 (sumUpcastI8 o [0, 4]) x = (if -8 ≤ x.toInt ∧ x.toInt ≤ 7 then ok () else panic) ∧
    sumBody c .i sum32 (sumUpcastI8 o' [0, 4, 8, 12]) x =
      (if -4 ≤ x.toInt ∧ x.toInt ≤ 3 then ok () else panic) := by
  have key : ∀ w (_ : w = 16 ∨ w = 32) (sum : Vector (BitVec 8) w → Res (BitVec 8)) (_ : IsSum c .i 8 w sum)
      (up : Vector (BitVec 8) w → Res (BitVec 64)) (r : BitVec 64) (_ : up (Packed.splat x) = ok r)
      (_ : r.toInt = (w : Int) * x.toInt ↔ -128 ≤ (w : Int) * x.toInt ∧ (w : Int) * x.toInt ≤ 127),
      sumBody c .i sum up x =
        if -128 ≤ (w : Int) * x.toInt ∧ (w : Int) * x.toInt ≤ 127 then ok () else panic := by
    intro w hw sum hs up r h3 h5
    have h1 := sum_splat hs (by omega) x (Or.inl hc)
    have h2 := sum_splat (.fallback .i 8 w) (c := c) (by omega) x (Or.inl hc)
    have h4 := sumUpcastFallback_splat (w := w) (c := c) (k := .i) x (Or.inl hc)
    rw [asI64_num .i (by omega) x (Or.inl (by omega))] at h4
    have hx := fits64 (n := 8) true (by omega) (by omega) (w := w) (by omega) x
    rw [show true = Kind.i.signed from rfl, fits_iff .i (by omega)] at hx
    have h6 : (BitVec.ofInt 64 (w * x.toInt)).toInt = w * x.toInt := Kind.value_ofInt .i (by omega) hx
    have h7 : r = BitVec.ofInt 64 (w * x.toInt) ↔ -128 ≤ (w : Int) * x.toInt ∧ (w : Int) * x.toInt ≤ 127 := by
      rw [← h5]
      constructor
      · intro e; rw [e]; exact h6
      · exact ofInt64_eq
    unfold sumFallback at h2
    unfold sumUpcastFallback at h4
    unfold sumBody
    rw [h1, h2, h3, h4]
    simp only [Res.ok_bind, assertSame_eq, if_true]
    rw [show num Kind.i.signed x = x.toInt from rfl]
    by_cases h8 : r = BitVec.ofInt 64 (w * x.toInt)
    · rw [if_pos h8, if_pos (h7.mp h8)]
    · rw [if_neg h8, if_neg (fun e => h8 (h7.mpr e))]
  constructor
  · obtain ⟨r, h1, -, h2⟩ := C42_i8x16 ho (Packed.splat x)
    rw [total_splat] at h2
    rw [key 16 (Or.inl rfl) sum16 hs _ r h1 h2]
    congr 1
    simp only [eq_iff_iff]
    push_cast
    omega
  · obtain ⟨r, h1, -, h2⟩ := C42_i8x32 ho' (Packed.splat x)
    rw [total_splat] at h2
    rw [key 32 (Or.inr rfl) sum32 hs' _ r h1 h2]
    congr 1
    simp only [eq_iff_iff]
    push_cast
    omega

/-- C127: in checked builds it panics for every constant whose sum is out of range. -/
theorem C127_sum_debug {c : Cfg} (hc : c.debug = true) {k : Kind} {sum : Vector (BitVec n) w → Res (BitVec n)}
    {up : Vector (BitVec n) w → Res (BitVec 64)} (hs : IsSum c k n w sum) (h0 : 0 < n) (x : BitVec n)
    (hx : ¬ Fits k.signed n (w * num k.signed x)) : sumBody c k sum up x = panic := by
  have hf : sumFallback c k (Packed.splat x : Vector (BitVec n) w) = panic := by
    refine C41_fallback_debug c hc k h0 _ (Nat.le_refl w) ?_
    rw [sumPrefix_splat _ _ (Nat.le_refl w)]
    exact hx
  have ht : (∃ r, sum (Packed.splat x) = ok r) ∨ sum (Packed.splat x) = panic := by
    cases hs with
    | fallback => exact Or.inr hf
    | u8x16 => exact Or.inl ⟨_, C41_u8x16 c _⟩
    | u8x32 => exact Or.inl ⟨_, C41_u8x32 c _⟩
    | i8x16 o ho => exact Or.inl ⟨_, C41_i8x16 ho _⟩
    | i8x32 o ho => exact Or.inl ⟨_, C41_i8x32 ho _⟩
    | i16x8 => exact Or.inl ⟨_, C41_i16x8 _⟩
    | i16x16 =>
      rw [C41_i16x16]
      split
      · exact Or.inr rfl
      · exact Or.inl ⟨_, rfl⟩
    | i32x8 =>
      rw [C41_i32x8]
      split
      · exact Or.inr rfl
      · exact Or.inl ⟨_, rfl⟩
    | u16x16 up hup => exact Or.inl ⟨_, C41_u16x16 c hup _⟩
  unfold sumFallback at hf
  unfold sumBody
  rw [hf]
  rcases ht with ⟨r, h⟩ | h <;> rw [h] <;> rfl

theorem sumLoop_once (c : Cfg) (k : Kind) (sum : Vector (BitVec n) w → Res (BitVec n))
    (up : Vector (BitVec n) w → Res (BitVec 64)) (fuel : Nat) (i : BitVec n)
    (h1 : k.value i < (k.hi n).tdiv 64 - 1)
    (h2 : k.lo n ≤ k.value i + k.value (BitVec.ofInt n ((k.hi n).tdiv 20)) ∧
      k.value i + k.value (BitVec.ofInt n ((k.hi n).tdiv 20)) ≤ k.hi n)
    (h3 : ¬ k.value (i + BitVec.ofInt n ((k.hi n).tdiv 20)) < (k.hi n).tdiv 64 - 1) :
    sumLoop c k sum up (fuel + 2) i = sumBody c k sum up i := by
  have hst : ∀ r : Res Unit, (r >>= fun _ => ok ()) = r := by intro r; cases r <;> rfl
  rw [sumLoop, if_pos h1]
  simp only [overflowCheck_fits h2, Res.ok_bind]
  rw [sumLoop, if_neg h3]
  exact hst _

/-- C127: the loop of the integer sum tests runs once, with `1` for unsigned types and
`-2^(n-7) + 1` for signed types (`-1` for `i8`). -/
theorem C127_sum_once (c : Cfg) (k : Kind) (hk : k ≠ .f) (hn : n = 8 ∨ n = 16 ∨ n = 32 ∨ n = 64)
    (sum : Vector (BitVec n) w → Res (BitVec n)) (up : Vector (BitVec n) w → Res (BitVec 64)) (fuel : Nat) :
    sumTest c k sum up (fuel + 2) = sumBody c k sum up (BitVec.ofInt n (if k = .i then 1 - 2 ^ (n - 7) else 1)) := by
  have hv : ∀ k : Kind, k ≠ .f → ∀ n, n = 8 ∨ n = 16 ∨ n = 32 ∨ n = 64 →
      (k.lo n).tdiv 64 + 1 = (if k = .i then 1 - 2 ^ (n - 7) else 1) := by
    intro k hk n hn
    rcases hn with rfl | rfl | rfl | rfl <;> cases k <;> first | exact absurd rfl hk | decide +kernel
  unfold sumTest
  rw [hv k hk n hn]
  rcases hn with rfl | rfl | rfl | rfl <;> cases k <;> first
    | exact absurd rfl hk
    | exact sumLoop_once c _ sum up fuel _ (by decide +kernel) (by decide +kernel) (by decide +kernel)

/-- C127: so the integer sum tests pass in every build, for every version of `sum` and
`sum_upcast` of every vector type of up to 512 bits. -/
theorem C127_sum_tests {c : Cfg} {k : Kind} (hk : k ≠ .f) (hn : n = 8 ∨ n = 16 ∨ n = 32 ∨ n = 64)
    {sum : Vector (BitVec n) w → Res (BitVec n)} {up : Vector (BitVec n) w → Res (BitVec 64)}
    (hs : IsSum c k n w sum) (hu : IsSumUpcast c k n w up) (hw0 : 0 < w) (hw : w * n ≤ 512) (fuel : Nat) :
    sumTest c k sum up (fuel + 2) = ok () := by
  rw [C127_sum_once c k hk hn]
  have hx : num k.signed (BitVec.ofInt n (if k = .i then 1 - 2 ^ (n - 7) else 1)) =
      if k = .i then 1 - 2 ^ (n - 7) else 1 := by
    rw [num_eq]
    rcases hn with rfl | rfl | rfl | rfl <;> cases k <;> first | exact absurd rfl hk | decide +kernel
  have h8 : 8 ≤ n := by omega
  have hw64 : w ≤ 64 := by
    have : w * 8 ≤ w * n := Nat.mul_le_mul_left w h8
    omega
  have hw64' : (w : Int) ≤ 64 := by exact_mod_cast hw64
  refine C127_sum_partial hs hu (by omega) (by omega) hw0 (by omega) _ ?_ ?_
  · rw [hx, fits_iff k (by omega)]
    rcases hn with rfl | rfl | rfl | rfl <;> cases k <;> first
      | exact absurd rfl hk
      | (simp only [Kind.lo, Kind.hi, reduceCtorEq, if_true, if_false]; norm_num; omega)
  · rintro rfl
    rw [hx, show true = Kind.i.signed from rfl, fits_iff .i (by omega)]
    cases k <;> first
      | exact absurd rfl hk
      | (simp only [Kind.lo, Kind.hi, reduceCtorEq, if_true, if_false]; norm_num; omega)

/-- Non-vacuity: the tests reject a `sum` that forgets a lane and a `sum_upcast` that wraps. -/
example : sumTest (n := 8) (w := 4) debug64 .u (sumFallback debug64 .u) (sumUpcastFallback debug64 .u) 3 = ok () ∧
    sumTest (n := 8) (w := 4) debug64 .u (fun v => sumFallback debug64 .u (Vector.ofFn (n := 3) fun i => v[i]))
      (sumUpcastFallback debug64 .u) 3 = panic ∧
    sumBody release64 .i (sumFallback release64 .i)
      (fun v : Vector (BitVec 8) 16 => sumFallback release64 .i v >>= fun s => ok (s.signExtend 64)) 8#8 = panic ∧
    sumBody release64 .i (sumFallback release64 .i)
      (fun v : Vector (BitVec 8) 16 => sumFallback release64 .i v >>= fun s => ok (s.signExtend 64)) 7#8 = ok () := by
  decide +kernel

/-! ### Floats -/

theorem assertEq_of {a b : Vector (BitVec n) w} (h : ∀ i (hi : i < w), feq a[i] b[i] = true) :
    assertEq a b = ok () := by
  unfold assertEq
  apply assert_ok
  rw [Vector.all_eq_true]
  intro i hi
  simpa using h i hi

/-- `f` adds (`sub = false`) or subtracts integers exactly as floats, up to `2^24` and `2^53`. -/
theorem fop_int (hn : n = 32 ∨ n = 64) (sub : Bool) {a b : ℤ} (ha : a.natAbs ≤ 2 ^ (mantBits n + 1))
    (hb : b.natAbs ≤ 2 ^ (mantBits n + 1))
    (h : (if sub then a - b else a + b).natAbs ≤ 2 ^ (mantBits n + 1)) :
    feq ((if sub then fsub else fadd) (fofInt n a) (fofInt n b)) (fofInt n (if sub then a - b else a + b)) = true := by
  rw [feq_iff hn]
  have ea := fofInt_exact hn ha
  have eb := fofInt_exact hn hb
  have ec := fofInt_exact hn h
  cases sub with
  | false =>
    simp only [Bool.false_eq_true, if_false] at h ec ⊢
    rw [ec, fadd_int hn ea eb h]; simp
  | true =>
    simp only [if_true] at h ec ⊢
    rw [ec, fsub_int hn ea eb h]; simp

/-- C127: the tests of `hadd` and `hsub` for floats, with any six integers that stay below `2^24`
(`2^53` for `f64`), on every version that follows `+` or `-`. -/
theorem C127_hop_float (hn : n = 32 ∨ n = 64) (sub : Bool) (hw : w % 2 = 0)
    {h : Vector (BitVec n) w → Vector (BitVec n) w → Res (Vector (BitVec n) w)}
    (hf : ∀ u v, h u v = ok (hSpec (if sub then fsub else fadd) u v hw)) (x y a b p q : ℤ)
    (hb : ∀ z ∈ [x, y, a, b, p, q, if sub then x - x else x + x, if sub then y - y else y + y,
      if sub then a - b else a + b, if sub then p - q else p + q], z.natAbs ≤ 2 ^ (mantBits n + 1)) :
    hopTestF h (fofInt n x) (fofInt n y) (fofInt n (if sub then x - x else x + x))
      (fofInt n (if sub then y - y else y + y)) (fofInt n a) (fofInt n b) (fofInt n p) (fofInt n q)
      (fofInt n (if sub then a - b else a + b)) (fofInt n (if sub then p - q else p + q)) = ok () := by
  simp only [List.forall_mem_cons, List.not_mem_nil, false_imp_iff, implies_true, and_true] at hb
  obtain ⟨h1, h2, h3, h4, h5, h6, h7, h8, h9, h10⟩ := hb
  unfold hopTestF
  rw [hf, hf, splat_interleave (fofInt n x), splat_interleave (fofInt n y), hSpec_interleave, hSpec_interleave]
  simp only [Res.ok_bind]
  rw [assertEq_of]
  · simp only [Res.ok_bind]
    rw [assertEq_of]
    intro i hi
    simp only [interleave, Vector.getElem_ofFn]
    split
    · exact fop_int hn sub h3 h4 h9
    · exact fop_int hn sub h5 h6 h10
  · intro i hi
    simp only [interleave, Vector.getElem_ofFn]
    split
    · exact fop_int hn sub h1 h1 h7
    · exact fop_int hn sub h2 h2 h8

/-- C127: all versions of `hadd` and `hsub` of float types do follow `+` and `-` (`f`). -/
theorem C127_hop_float_versions (f : BitVec 32 → BitVec 32 → BitVec 32) (g : BitVec 64 → BitVec 64 → BitVec 64) :
    (∀ r : HopRow, r ∈ haddRows ++ haddRowsUnknown ∨ r ∈ hsubRows ++ hsubRowsUnknown →
      ∃ hw : r.width % 2 = 0, ∀ (a b : Vector (BitVec 32) r.width) (p q : Vector (BitVec 64) r.width),
        hop (fun x y => ok (f x y)) r.idx a b = ok (hSpec f a b hw) ∧
        hop (fun x y => ok (g x y)) r.idx p q = ok (hSpec g p q hw)) ∧
    (∀ a b : Vector (BitVec 32) 4, hopShufflePs f a b = hSpec f a b rfl) ∧
    (∀ a b : Vector (BitVec 32) 8, hopUnpack 4 f a b = hSpec f a b rfl) ∧
    (∀ a b : Vector (BitVec 64) 2, hopPd g a b = hSpec g a b rfl) ∧
    (∀ a b : Vector (BitVec 64) 4, hopPd g a b = hSpec g a b rfl) := by
  refine ⟨fun r hr => ?_, C40_optimized_f32x4 f, C40_optimized_i32x8 f, C40_optimized_f64x2 g, C40_optimized_f64x4 g⟩
  have hw : r.width % 2 = 0 := by
    rcases hr with h | h
    · exact (haddRows_facts r h).2.2.1
    · exact (hsubRows_facts r h).2.2.1
  exact ⟨hw, fun a b p q => ⟨C40_float_fallback f r hr hw a b, C40_float_fallback g r hr hw p q⟩⟩

theorem feq_abs_self (hn : n = 32 ∨ n = 64) {x : BitVec n} (h : fnan x = false) :
    feq (fabsScalar x) (fabsScalar x) = true := by
  have : fnan (fabsScalar x) = false := by
    rw [← h]
    unfold fnan fabsScalar fmag
    rcases hn with rfl | rfl <;> simp
  simp [feq, this]

/-- C127: the tests of `abs` for floats, with any limits up to `2^20`, on all versions of all
float types. -/
theorem C127_abs_float (opt : Bool) (r : AbsRow) (hr : r ∈ absRows ++ absRowsUnknown) (hk : r.kind = .f)
    (L : ℤ) (hL : |L| ≤ 2 ^ 20) (fuel : Nat) : ∀ (i : ℤ) (x : BitVec (8 * r.size)), -(2 ^ 20) < i →
    ieee x = .fin i → L - i < fuel → 0 < fuel →
    absTestF (w := r.width) (absOf opt r) (fofInt _ L) fuel x = ok () := by
  have hf : ∀ r ∈ absRows ++ absRowsUnknown, r.kind = .f → 0 < r.width ∧ (8 * r.size = 32 ∨ 8 * r.size = 64) := by
    decide +kernel
  obtain ⟨hw, hn⟩ := hf r hr hk
  have hm : (2 : ℤ) ^ 20 ≤ 2 ^ (mantBits (8 * r.size) - 3) := by
    rcases hn with h | h <;> rw [h] <;> norm_num [mantBits]
  have hlim : ieee (fofInt (8 * r.size) L) = .fin (L : ℚ) := fofInt_val hn (by omega)
  induction fuel with
  | zero => intro i x _ _ _ h; omega
  | succ fuel ih =>
    intro i x hi hx hfuel _
    unfold absTestF
    split
    · rename_i hlt
      rw [flt_fin hn hx hlim] at hlt
      have hlt : i < L := by exact_mod_cast hlt
      have hib : |i| < 2 ^ 20 := by
        rw [abs_lt]; have := le_abs_self L; constructor <;> omega
      have hone := (fadd_one hn hx (lt_of_lt_of_le hib hm)).1
      rw [absOf_map opt r hr hk]
      simp only [Res.ok_bind, Packed.extract, dif_pos hw, Vector.getElem_map, splat_get]
      rw [assert_ok (feq_abs_self hn (fnan_of_fin hn hx).1)]
      simp only [Res.ok_bind]
      by_cases h0 : 0 < fuel
      · exact ih (i + 1) _ (by omega) hone (by push_cast at hfuel; omega) h0
      · push_cast at hfuel; omega
    · rfl

/-- C127: the float sum tests, for any range of integers `z` with `w * |z|` up to `2^24` (`2^53`
for `f64`), for every version of `sum` that adds each lane once, in every build. -/
theorem C127_sum_float (c : Cfg) (hn : n = 32 ∨ n = 64)
    {sum : (BitVec n → BitVec n → BitVec n) → Vector (BitVec n) w → Res (BitVec n)} {p : Plan}
    (hf : Follows sum (fZero n false) p) (hl : p.lanes = List.range w) (hw0 : 0 < w) (M k : ℕ) (i : ℤ)
    (hM : w * M ≤ 2 ^ (if n = 32 then 24 else 53)) (hi : -M ≤ i) (hk : i + k ≤ M + 1) :
    sumTestF c (sum fadd) (sumUpcastFloat c) k i = ok () := by
  induction k generalizing i with
  | zero => rfl
  | succ k ih =>
    have hm : (if n = 32 then 24 else 53) = mantBits n + 1 := by
      rcases hn with rfl | rfl <;> simp [mantBits]
    have hiM : i.natAbs ≤ M := by push_cast at hk; omega
    have hwi : w * i.natAbs ≤ w * M := Nat.mul_le_mul_left w hiM
    have hx : ieee (fofInt n i) = .fin (i : ℚ) := by
      apply fofInt_exact hn
      rw [← hm]
      have : i.natAbs ≤ w * i.natAbs := Nat.le_mul_of_pos_left _ hw0
      omega
    have hb : ((List.range w).map fun _ => i.natAbs).sum ≤ 2 ^ (if n = 32 then 24 else 53) := by
      simpa using le_trans hwi hM
    obtain ⟨s1, h1, e1⟩ := C63_integers hn hf hl (Packed.splat (fofInt n i)) (fun _ => i)
      (fun j hj => by simpa [Packed.splat] using hx) hb
    obtain ⟨s2, h2, e2⟩ := C63_integers hn (C63_fallback (w := w) (fZero n false)).1
      (C63_fallback (w := w) (fZero n false)).2 (Packed.splat (fofInt n i)) (fun _ => i)
      (fun j hj => by simpa [Packed.splat] using hx) hb
    have h63 : w * M ≤ 2 ^ 53 := le_trans hM (Nat.pow_le_pow_right (by omega) (by split <;> omega))
    obtain ⟨r, h3, -⟩ := C121_float_partial c hn hw0 (Packed.splat (fofInt n i)) (List.replicate w (i : ℚ))
      (by simp [Packed.splat, hx]) M (by
        intro q hq
        rw [List.eq_of_mem_replicate hq]
        have : |i| ≤ (M : ℤ) := by rw [abs_le]; omega
        exact_mod_cast this) (by
        have : ((w * M : ℕ) : ℚ) ≤ ((2 ^ 53 : ℕ) : ℚ) := by exact_mod_cast h63
        push_cast at this
        norm_num at this ⊢
        linarith)
    have hfe : feq s1 s2 = true := by rw [feq_iff hn, e1, e2]; simp
    unfold sumFallbackF at h2
    have h4 := h3
    unfold sumUpcastFloat at h4
    simp only [sumTestF, h1, h2, h3, h4, Res.ok_bind, assert_ok hfe, assertSame_self]
    exact ih (i + 1) (by omega) (by push_cast at hk ⊢; omega)

/-- Non-vacuity: the range of the tests (-100 to 99) on the widest float vectors. -/
example : 16 * 100 ≤ 2 ^ 24 ∧ 8 * 100 ≤ 2 ^ 53 ∧ (-100 : ℤ) + 200 ≤ 100 + 1 := by decide

end Faster
