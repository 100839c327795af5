import Verif.Props.Accumulators
import Verif.Props.SoftSum
import Verif.Props.UpcastSum
/-
C173: unrolled loops with several accumulators and operators which are checked in debug builds.
-/
namespace Faster
open Res SIMDSized SIMDIterable SIMDIterator

/-- `for (a, v) in accs.iter_mut().zip(chunk) { *a = op(*a, g(v)) }` for an operation which may panic. -/
def zipAccM {A V : Type} (op : A → A → Res A) (g : V → A) : List A → List V → Res (List A)
  | a :: as, v :: vs => do
    let x ← op a (g v)
    let r ← zipAccM op g as vs
    ok (x :: r)
  | as, _ => ok as

section
variable {T α A B : Type} {w : Nat} [SIMDSized T] [SIMDIterator T α w] {c : Cfg}

/-- As `accLoop` (src/iters.rs:386-403). -/
def accLoopM (c : Cfg) (op : A → A → Res A) (g : Vector α w → A) :
    (fuel : Nat) → Unrolled T α w → List A → Res (Unrolled T α w × List A)
  | 0, _, _ => hang
  | fuel + 1, u, accs => do
    let (r, u) ← Unrolled.next c u
    match r with
    | none => ok (u, accs)
    | some ref => do
      let accs ← zipAccM op g accs (ref.read u)
      accLoopM c op g fuel u accs

/-- As `unrolledAccs`. -/
def unrolledAccsM [Packable α] (c : Cfg) (fuel amt m : Nat) (it : T) (op : A → A → Res A) (e : A)
    (g : Vector α w → A) : Res (T × A) := do
  let u ← unroll it amt
  let (u, accs) ← accLoopM c op g fuel u (List.replicate m e)
  let (r, it) ← end_ c u.iter
  let acc ← accs.foldlM op e
  match r with
  | some (v, _) =>
    let acc ← op acc (g v)
    ok (it, acc)
  | none => ok (it, acc)

/-- A computation returns what `φ` maps to `b`, or panics, which it may only if `P`. -/
def Tracks (P : Prop) (φ : A → B) (b : B) (x : Res A) : Prop := (∃ a, x = ok a ∧ φ a = b) ∨ (P ∧ x = Res.panic)

variable {P : Prop} {φ : A → B} {op : A → A → Res A} {op' : B → B → B} {g : Vector α w → A}

theorem zipAccM_tracks {V : Type} {g : V → A} (h : ∀ a b, Tracks P φ (op' (φ a) (φ b)) (op a b)) (as : List A)
    (vs : List V) : Tracks P (List.map φ) (zipAcc op' (fun v => φ (g v)) (as.map φ) vs) (zipAccM op g as vs) := by
  induction as generalizing vs with
  | nil => exact .inl ⟨[], rfl, rfl⟩
  | cons a as ih => cases vs with
    | nil => exact .inl ⟨a :: as, rfl, rfl⟩
    | cons v vs =>
      simp only [zipAccM]
      rcases h a (g v) with ⟨x, e, hx⟩ | ⟨hp, e⟩
      · rcases ih vs with ⟨r, e', hr⟩ | ⟨hp, e'⟩
        · exact .inl ⟨x :: r, by simp only [e, e', ok_bind], by simp [zipAcc, hx, hr]⟩
        · exact .inr ⟨hp, by simp only [e, e', ok_bind]; rfl⟩
      · exact .inr ⟨hp, by simp only [e]; rfl⟩

theorem foldlM_tracks (h : ∀ a b, Tracks P φ (op' (φ a) (φ b)) (op a b)) (as : List A) :
    ∀ x, Tracks P φ ((as.map φ).foldl op' (φ x)) (as.foldlM op x) := by
  induction as with
  | nil => intro x; exact .inl ⟨x, rfl, rfl⟩
  | cons a as ih =>
    intro x
    rw [List.foldlM_cons, List.map_cons, List.foldl_cons]
    rcases h x a with ⟨y, e, hy⟩ | ⟨hp, e⟩
    · rw [e, ← hy, ok_bind]; exact ih y
    · rw [e]; exact .inr ⟨hp, rfl⟩

theorem accLoopM_tracks (h : ∀ a b, Tracks P φ (op' (φ a) (φ b)) (op a b)) : ∀ (fuel : Nat) (u u' : Unrolled T α w)
    (accs : List A) (bs : List B), accLoop c op' (fun v => φ (g v)) fuel u (accs.map φ) = ok (u', bs) →
    Tracks P (Prod.map id (List.map φ)) (u', bs) (accLoopM c op g fuel u accs) := by
  intro fuel
  induction fuel with
  | zero => intro u u' accs bs h; cases h
  | succ fuel ih =>
    intro u u' accs bs hl
    unfold accLoop at hl
    unfold accLoopM
    rcases hn : Unrolled.next c u with ⟨_ | ref, u1⟩ | _ | _ | _
    · rw [hn] at hl
      cases hl
      exact .inl ⟨(u', accs), rfl, rfl⟩
    · rw [hn] at hl
      simp only [ok_bind] at hl ⊢
      rcases zipAccM_tracks (g := g) h accs (ref.read u1) with ⟨r, e, hr⟩ | ⟨hp, e⟩
      · rw [← hr] at hl
        rw [e, ok_bind]
        exact ih u1 u' r bs hl
      · rw [e]; exact .inr ⟨hp, rfl⟩
    all_goals rw [hn] at hl; cases hl

/-- A checked loop follows the loop on what `φ` gives. -/
theorem C173_tracks [Packable α] (h : ∀ a b, Tracks P φ (op' (φ a) (φ b)) (op a b)) (e : A) (fuel amt m : Nat)
    (it it' : T) (b : B) (hb : unrolledAccs c fuel amt m it op' (φ e) (fun v => φ (g v)) = ok (it', b)) :
    Tracks P (Prod.map id φ) (it', b) (unrolledAccsM c fuel amt m it op e g) := by
  unfold unrolledAccs at hb
  unfold unrolledAccsM
  rcases hu : (unroll it amt : Res (Unrolled T α w)) with u | _ | _ | _
  · rw [hu] at hb
    simp only [ok_bind] at hb ⊢
    rw [← List.map_replicate] at hb
    rcases hl : accLoop c op' (fun v => φ (g v)) fuel u ((List.replicate m e).map φ) with ⟨u1, bs⟩ | _ | _ | _
    · rw [hl] at hb
      simp only [ok_bind] at hb
      rcases accLoopM_tracks (g := g) h fuel u u1 _ bs hl with ⟨⟨u2, as⟩, e1, e2⟩ | ⟨hp, e1⟩
      · simp only [Prod.map, id, Prod.mk.injEq] at e2
        obtain ⟨rfl, rfl⟩ := e2
        simp only [e1, ok_bind]
        rcases hend : end_ c u2.iter with ⟨r, it2⟩ | _ | _ | _
        · rw [hend] at hb
          simp only [ok_bind] at hb ⊢
          rcases foldlM_tracks h as e with ⟨x, e3, hx⟩ | ⟨hp, e3⟩
          · simp only [e3, ok_bind]
            rw [← hx] at hb
            rcases r with _ | ⟨v, k⟩
            · cases hb
              exact .inl ⟨_, rfl, rfl⟩
            · cases hb
              rcases h x (g v) with ⟨y, e4, hy⟩ | ⟨hp, e4⟩
              · simp only [e4, ok_bind]; exact .inl ⟨_, rfl, by simp [hy]⟩
              · simp only [e4]; exact .inr ⟨hp, rfl⟩
          · simp only [e3]; exact .inr ⟨hp, rfl⟩
        all_goals rw [hend] at hb; cases hb
      · simp only [e1]; exact .inr ⟨hp, rfl⟩
    all_goals rw [hl] at hb; cases hb
  all_goals rw [hu] at hb; cases hb

end

variable {n w : Nat} {c : Cfg} {k : Kind}

/-- The sum of a slice with software vectors (src/arch/unknown/vecs.rs:181-197) and `m` accumulators. -/
def unrolledSumSoft (c : Cfg) (fuel amt m : Nat) (k : Kind) (w : Nat) (data : List (BitVec n)) : Res (BitVec n) := do
  let (_, acc) ← unrolledAccsM c fuel amt m (simdIter (w := w) data (Packed.splat 0)) (Soft.binop (addInt c k) 0)
    (Packed.splat 0) id
  sumFallback c k acc

/-- **C173**, debug builds: with any number of accumulators the exact sum, or a panic. -/
theorem C173_debug (hd : c.debug = true) (h0 : 0 < n) (hw : 0 < w) (fuel amt m : Nat) (data : List (BitVec n))
    (ha0 : 0 < amt) (ha : amt ≤ 8) (hm : amt ≤ m) (hlen : data.length + w < c.usize)
    (hfuel : data.length / w < fuel) :
    (∃ r, unrolledSumSoft c fuel amt m k w data = ok r ∧ num k.signed r = listTotal k.signed data) ∨
      unrolledSumSoft c fuel amt m k w data = Res.panic := by
  let φ : Vector (BitVec n) w → Int := fun v => listTotal k.signed v.toList
  have hop : ∀ a b : Vector (BitVec n) w, Tracks True φ (φ a + φ b) (Soft.binop (addInt c k) 0 a b) := by
    intro a b
    rcases softAdd_cases (c := c) (k := k) a b with ⟨h1, h2⟩ | h
    · exact .inl ⟨_, h2, exact_zip h0 hd h1⟩
    · exact .inr ⟨trivial, h⟩
  have hz : φ (Packed.splat 0) = 0 := by
    show listTotal _ _ = 0
    rw [Packed.splat, Vector.toList_replicate]
    exact (zeros_value w).1
  have h3 := C03_reduce_foldl c fuel data (Packed.splat 0) 0 (fun acc v => acc + φ v) hw hlen hfuel
  have hp : unrolledAccs c fuel amt m (simdIter (w := w) data (Packed.splat 0)) (fun a b : Int => a + b) 0 φ =
      ok (⟨data.length, ⟨data⟩, Packed.splat 0⟩,
        (calls w (Packed.splat 0) data).foldl (fun acc v => acc + φ v) 0) := by
    refine (C170_slice (c := c) (op := fun a b : Int => a + b) (e := 0) (g := φ) Int.add_assoc Int.add_comm rfl
      data (Packed.splat 0) 0 amt m fuel hw hlen (by omega) ha0 ha hm (by simpa using hfuel)).trans ?_
    unfold simdIter at h3
    rw [h3]
    rfl
  have hsum : ∀ (vs : List (Vector (BitVec n) w)) (x : Int),
      vs.foldl (fun acc v => acc + φ v) x = x + listTotal k.signed (lanes vs) := by
    intro vs
    induction vs with
    | nil => intro x; simp [listTotal]
    | cons v vs ih => intro x; rw [List.foldl_cons, ih, lanes_cons, listTotal_append]; simp only [φ]; omega
  have hcalls : listTotal k.signed (lanes (calls w (Packed.splat 0) data)) = listTotal k.signed data := by
    obtain ⟨t1, -⟩ := lanes_calls_total k.signed hw (Packed.splat 0 : Vector (BitVec n) w) data
    rw [t1]
    unfold padding
    split
    · simp [listTotal]
    · rw [Packed.splat, Vector.toList_replicate, List.take_replicate, (zeros_value _).1]; omega
  rw [hsum, hcalls, Int.zero_add, ← hz] at hp
  unfold unrolledSumSoft
  rcases C173_tracks (g := id) hop (Packed.splat 0) fuel amt m _ _ _ hp with ⟨⟨it, acc⟩, e1, e2⟩ | ⟨-, e1⟩
  · have e2 : listTotal k.signed acc.toList = listTotal k.signed data := congrArg Prod.snd e2
    simp only [e1, ok_bind]
    by_cases hj : ∀ j ≤ w, Fits k.signed n (List.sum (List.map (num k.signed) (List.take j acc.toList)))
    · left
      refine ⟨_, C41_fallback_fits c k h0 _ hj, ?_⟩
      have hf := hj w (Nat.le_refl w)
      rw [List.take_of_length_le (by simp)] at hf
      exact (num_ofInt_fits k h0 hf).trans e2
    · right
      push Not at hj
      obtain ⟨j, h1, h2⟩ := hj
      exact C41_fallback_debug c hd k h0 _ h1 h2
  · simp only [e1]; exact .inr rfl

/-- **C173**, release builds: the sum modulo `2^n`, with any number of accumulators. -/
theorem C173_release (hc : c.debug = false) (hw : 0 < w) (fuel amt m : Nat) (data : List (BitVec n))
    (ha0 : 0 < amt) (ha : amt ≤ 8) (hm : amt ≤ m) (hlen : data.length + w < c.usize)
    (hfuel : data.length / w < fuel) :
    unrolledSumSoft c fuel amt m k w data = ok (BitVec.ofInt n (listTotal k.signed data)) := by
  have hop : ∀ a b : Vector (BitVec n) w, Tracks False id (a.zipWith (· + ·) b) (Soft.binop (addInt c k) 0 a b) := by
    intro a b
    refine .inl ⟨_, (Lifts2.binop (w := w) (0 : BitVec n) (addInt_total (c := c) (k := k))).lanes a b
      (a.zipWith (· + ·) b) fun i hi => ?_, rfl⟩
    unfold addInt overflowCheck
    simp [hc]
  have hs := C170_sum (signed := k.signed) (fun v => C41_fallback_release c hc k v) c fuel amt m data hw hlen ha0 ha hm
    hfuel
  rcases hx : unrolledAccs c fuel amt m (simdIter (w := w) data (Packed.splat 0))
      (fun a b : Vector (BitVec n) w => a.zipWith (· + ·) b) (Packed.splat 0) id with ⟨it, acc⟩ | _ | _ | _
  · rw [hx] at hs
    rcases C173_tracks (φ := id) (g := id) hop (Packed.splat 0) fuel amt m _ _ _ hx with ⟨⟨it2, acc2⟩, e1, e2⟩ | ⟨h, -⟩
    · simp only [Prod.map, id, Prod.mk.injEq] at e2
      obtain ⟨rfl, rfl⟩ := e2
      unfold unrolledSumSoft
      simp only [e1, ok_bind] at hs ⊢
      exact hs
    · exact h.elim
  all_goals rw [hx] at hs; cases hs

/-- The number of accumulators decides whether a debug build panics, not what it returns: 100, -100, 100, -100 one after
the other do not overflow, with two accumulators 100 and 100 do. -/
theorem C173_panics :
    unrolledSumSoft debug64 9 1 1 .i 1 [100#8, -100, 100, -100] = ok 0 ∧
    unrolledSumSoft debug64 9 2 2 .i 1 [100#8, -100, 100, -100] = Res.panic ∧
    unrolledSumSoft debug64 9 1 1 .i 1 [100#8, 100, -100, -100] = Res.panic ∧
    unrolledSumSoft debug64 9 2 2 .i 1 [100#8, 100, -100, -100] = ok 0 := by
  refine ⟨?_, ?_, ?_, ?_⟩ <;> decide +kernel

end Faster
