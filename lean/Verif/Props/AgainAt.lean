import Verif.Props.PassAt
import Verif.Props.Consume
import Verif.Props.ReduceDoc
/-
C141, C142: the lanes which `simd_reduce` combines and the state in which the consumers leave the
iterator, at every position, for strided iterators and for zips of any arity.
-/
namespace Faster
open Res SIMDSized SIMDIterable SIMDIterator

section
variable {I α β σ τ : Type} {w : Nat} [SIMDSized I] [SIMDIterator I α w]
  {c : Cfg} {S : Nat → I} {l : List α} {d : Vector α w} {more : Nat → Prop} {b : Nat}

/-- At and behind its end the iterator is exhausted. -/
theorem Everywhere.exhausted_at (h : Everywhere c S l d more b) (hw : 0 < w) (p : Nat) (hp : p < b) :
    Exhausted c (S (max p l.length)) := by
  by_cases hpl : p ≤ l.length
  · rw [Nat.max_eq_right hpl]
    exact h.toDriver.exhausted (h.toDriver.not_more hw)
  · rw [Nat.max_eq_left (by omega)]
    exact ⟨h.past_next p (by omega) hp, h.past_end p (by omega) hp⟩

theorem Everywhere.pos_at (h : Everywhere c S l d more b) (p : Nat) (hp : p < b) :
    scalarPos c (S p) = ok p := by
  by_cases hpl : p ≤ l.length
  · exact h.pos p hpl
  · exact h.past_pos p (by omega) hp

theorem Everywhere.pos_max (h : Everywhere c S l d more b) (p : Nat) (hp : p < b) :
    scalarPos c (S (max p l.length)) = ok (max p l.length) := by
  by_cases hpl : p ≤ l.length
  · rw [Nat.max_eq_right hpl]; exact h.pos _ (Nat.le_refl _)
  · rw [Nat.max_eq_left (by omega)]; exact h.pos_at p hp

/-- **C142**, every position: a `simd_do_each` which returns leaves the iterator at its end (or
where it was, if it was behind the end); a second pass over it calls nothing. -/
theorem C142_again_at {A : Type} (h : Everywhere c S l d more b) (fuel fuel' : Nat) (st st' : σ) (t : τ)
    (f : FnMut σ (Vector α w) Unit) (g : FnMut τ (Vector α w) Unit) (start : A)
    (r : τ → A → Vector α w → Res (A × τ)) (it : I) (p : Nat) (hp : p < b) (hw : 0 < w) (k : Nat)
    (hk : ∀ i, i < k → more (p + i * w)) (hk' : ¬ more (p + k * w)) (hfuel : k < fuel)
    (h1 : simdDoEach c fuel (S p) st f = ok (it, st')) :
    it = S (max p l.length) ∧ simdDoEach c (fuel' + 1) it t g = ok (it, t) ∧
      simdReduce c (fuel' + 1) it start t r = ok (it, start, t) := by
  rw [C02_at h fuel st f p hp hw k hk hk' hfuel] at h1
  split at h1
  · unfold badAccess at h1
    split at h1 <;> simp at h1
  · obtain ⟨q, -, h2⟩ := bind_eq_ok.mp h1
    simp only [ok.injEq, Prod.mk.injEq] at h2
    rw [← h2.1]
    have he := h.exhausted_at hw p hp
    exact ⟨rfl, C15_do_each c fuel' _ t g he, C15_reduce c fuel' _ start t r he⟩

/-- **C142**, every position: the position is unmodified exactly if no elements remained. -/
theorem C142_unmodified_at (h : Everywhere c S l d more b) (fuel : Nat) (st st' : σ)
    (f : FnMut σ (Vector α w) Unit) (it : I) (p : Nat) (hp : p < b) (hw : 0 < w) (k : Nat)
    (hk : ∀ i, i < k → more (p + i * w)) (hk' : ¬ more (p + k * w)) (hfuel : k < fuel)
    (h1 : simdDoEach c fuel (S p) st f = ok (it, st')) :
    scalarPos c it = scalarPos c (S p) ↔ l.length ≤ p := by
  obtain ⟨h2, -⟩ := C142_again_at (τ := Unit) (A := Unit) h fuel 0 st st' () f (fun _ _ => panic) ()
    (fun _ _ _ => panic) it p hp hw k hk hk' hfuel h1
  rw [h2, h.pos_at p hp]
  by_cases hpl : p ≤ l.length
  · rw [Nat.max_eq_right hpl, h.pos _ (Nat.le_refl _)]
    simp only [ok.injEq]
    omega
  · rw [Nat.max_eq_left (by omega), h.pos_at p hp]
    simp only [true_iff]
    omega

/-- **C141**, every position: lane `j` of a lane-wise `simd_reduce` combines the elements which
are left in the lanes of `actualLane`. -/
theorem C141_lane_at (h : Everywhere c S l d more b) (fuel : Nat) (start : Vector β w)
    (op : β → α → β) (p : Nat) (hp : p < b) (hw : 0 < w) (k : Nat)
    (hk : ∀ i, i < k → more (p + i * w)) (hk' : ¬ more (p + k * w)) (hfuel : k < fuel)
    (hst : ¬ Stuck w p l.length) :
    ∃ acc, simdReduce c fuel (S p) start () (fun _ a v => ok (Vector.zipWith op a v, ())) =
        ok (S (max p l.length), acc, ()) ∧
      ∀ j (hj : j < w), acc[j] = (actualLane w d (l.drop p) j hj).foldl op start[j] := by
  rw [C03_at h fuel start () _ p hp hw k hk hk' hfuel, if_neg hst]
  have e := foldlM_pure (fun a v => Vector.zipWith op a v) (calls w d (l.drop p)) start
  refine ⟨_, (congrArg (· >>= fun q => ok (_, q.1, q.2)) e).trans rfl, fun j hj => ?_⟩
  rw [foldl_zipWith_lane, column_calls d _ hw]

end

section
variable {I R α γ δ : Type} {w : Nat} [SIMDSized I] [SIMDIterator I α w] [Packable α]
  [ZipRest R γ] [LawfulRest R γ δ w]
  {c : Cfg} {S : Nat → I} {r : R} {rows : List (α × δ)} {dv : Vector (α × δ) w} {more : Nat → Prop}
  {b : Nat}

/-- **C142** for zips, every position of the first iterator. -/
theorem C142_zip_again_at {σ τ A : Type}
    (h : Everywhere c S (rows.map Prod.fst) (dv.map Prod.fst) more b)
    (hw : 0 < w) (hr : LawfulRest.Rep c r (rows.map Prod.snd) (dv.map Prod.snd))
    (hu : rows.length + w < c.usize) (fuel fuel' : Nat) (st st' : σ) (t : τ)
    (f : FnMut σ (Vector α w × γ) Unit) (g : FnMut τ (Vector α w × γ) Unit) (start : A)
    (q : τ → A → Vector α w × γ → Res (A × τ)) (z : Zip I R)
    (p : Nat) (hp : p < b) (k : Nat)
    (hk : ∀ i, i < k → more (p + i * w)) (hk' : ¬ more (p + k * w)) (hfuel : k < fuel)
    (h1 : zsimdDoEach c fuel (⟨S p, r⟩ : Zip I R) st f = ok (z, st')) :
    z = ⟨S (max p rows.length), r⟩ ∧ zsimdDoEach c (fuel' + 1) z t g = ok (z, t) ∧
      zsimdReduce c (fuel' + 1) z start t q = ok (z, start, t) := by
  rw [C24_do_each_at h hw hr hu fuel st f p hp k hk hk' hfuel] at h1
  split at h1
  · unfold badAccess at h1
    split at h1 <;> simp at h1
  · obtain ⟨q, -, h2⟩ := bind_eq_ok.mp h1
    simp only [ok.injEq, Prod.mk.injEq] at h2
    rw [← h2.1]
    have he := h.exhausted_at hw p hp
    have hq := h.pos_max p hp
    rw [List.length_map] at he hq
    have := C15_zip c _ r he hq
    exact ⟨rfl, C15_zip_do_each c fuel' _ t g this, C15_zip_reduce c fuel' _ start t _ this⟩

/-- **C141** for zips of any arity, at every position of the first iterator: a closure which combines
the lanes of its vectors row by row sees in lane `j` the rows `j`, `j + w`, … which are left. -/
theorem C141_zip_lane_at {β : Type}
    (h : Everywhere c S (rows.map Prod.fst) (dv.map Prod.fst) more b)
    (hw : 0 < w) (hr : LawfulRest.Rep c r (rows.map Prod.snd) (dv.map Prod.snd))
    (hu : rows.length + w < c.usize) (fuel : Nat) (start : Vector β w)
    (op : β → α × δ → β) (f : Vector β w → Vector α w × γ → Vector β w)
    (hf : ∀ a (v : Vector (α × δ) w), f a (packRow R v) = Vector.zipWith op a v)
    (p : Nat) (hp : p < b) (k : Nat)
    (hk : ∀ i, i < k → more (p + i * w)) (hk' : ¬ more (p + k * w)) (hfuel : k < fuel)
    (hst : ¬ Stuck w p rows.length) :
    ∃ acc, zsimdReduce c fuel (⟨S p, r⟩ : Zip I R) start () (fun _ a v => ok (f a v, ())) =
        ok (⟨S (max p rows.length), r⟩, acc, ()) ∧
      ∀ j (hj : j < w), acc[j] = (actualLane w dv (rows.drop p) j hj).foldl op start[j] := by
  rw [C24_reduce_at h hw hr hu fuel start () _ p hp k hk hk' hfuel, if_neg hst]
  have e := foldlM_pure f ((calls w dv (rows.drop p)).map (packRow R)) start
  refine ⟨_, (congrArg (· >>= fun q => ok (_, q.1, q.2)) e).trans rfl, fun j hj => ?_⟩
  simp only [List.foldl_map, hf]
  rw [foldl_zipWith_lane, column_calls dv _ hw]

end

/-- Seven elements from position 2, in two vectors of four lanes: lane 0 combines 3 and the default, lane
1 combines 4 and 7. -/
example : (simdReduce debug64 9 (⟨2, ⟨[1#8, 2, 3, 4, 5, 6, 7, 8, 9]⟩, #v[100, 100, 100, 100]⟩ :
      SIMDIter (Slice (BitVec 8) 4) (BitVec 8) 4) #v[[], [], [], []] ()
      (fun _ a v => ok (Vector.zipWith (fun l x => l ++ [x.toNat]) a v, ()))).bind (fun r => ok r.2.1) =
    ok #v[[3, 100], [4, 7], [5, 8], [6, 9]] := by decide +kernel

/-- A row-by-row closure for two iterators, as `C141_zip_lane_at` asks for. -/
example (op : Nat → BitVec 8 × BitVec 16 × Unit → Nat) :
    ∃ f : Vector Nat 4 → Vector (BitVec 8) 4 × Vector (BitVec 16) 4 × Unit → Vector Nat 4,
      ∀ a (v : Vector (BitVec 8 × BitVec 16 × Unit) 4),
        f a (packRow (SIMDIter (Slice (BitVec 16) 4) (BitVec 16) 4 × Unit) v) = Vector.zipWith op a v := by
  refine ⟨fun a v => Vector.ofFn fun j => op a[j] (v.1[j], v.2.1[j], ()), fun a v => ?_⟩
  ext j hj
  simp [packRow, LawfulRest.pack]

end Faster
