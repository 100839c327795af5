import Verif.Props.Staged
import Verif.Props.ZipOrder
/-
C151, for a first pass over any iterator or zip.
-/
namespace Faster
open Res

variable {α β γ δ σ τ A X : Type} {w w' w'' : Nat} {c : Cfg}

/-- `first` collects a `Vec`, then the program `next` runs on it. -/
def thenOn {ρ : Type} (first : Res (X × List (Option β))) (next : List β → Res ρ) : Res ρ := do
  let (_, mid) ← first
  let mid ← readVec mid
  next mid

section
variable {V : Type} (f : FnMut σ V (Vector β w')) (s : σ) (vs : List V) (p n : Nat)
  (first : Res (X × List (Option β))) (x : List (Vector β w') × σ → X) (d' : Vector β w')

theorem thenOn_reduce (hfirst : first = callAll f s vs >>= fun q => ok (x q, (unpad p q.1).map some))
    (hw' : 0 < w') (hp : p < w') (hn : vs.length ≤ n) (hlen : n * w' + w' < c.usize) (fuel' : Nat)
    (hfuel' : n < fuel') (start : A) (t : τ) (g : τ → A → Vector β w' → Res (A × τ)) :
    (thenOn first fun mid => do
      let (_, acc) ← simdReduce c fuel' (simdIter mid d') start t g
      ok acc) = (do
      let (outs, _) ← callAll f s vs
      (repad p d' outs).foldlM (fun (q : A × τ) v => g q.2 q.1 v) (start, t)) := by
  unfold thenOn
  rw [hfirst]
  cases h : callAll f s vs with
  | ok q =>
    obtain ⟨outs, s'⟩ := q
    have h1 := unpad_length_le p outs
    rw [callAll_length f s _ h] at h1
    have h3 : (unpad p outs).length ≤ n * w' := Nat.le_trans h1 (Nat.mul_le_mul_right _ hn)
    have h4 : (unpad p outs).length / w' ≤ n := by
      have := Nat.div_le_div_right (c := w') h3
      rwa [Nat.mul_div_cancel _ hw'] at this
    simp only [ok_bind, readVec_some]
    rw [C03_reduce_fold c fuel' _ d' start t g hw' (by omega) (by omega), calls_unpad hw' d' hp]
    simp only [bind_assoc, ok_bind]
    cases List.foldlM (fun (q : A × τ) v => g q.2 q.1 v) (start, t) (repad _ d' outs) <;> rfl
  | panic => rfl
  | ub => rfl
  | hang => rfl

theorem thenOn_collect [Packable β] [Packable γ]
    (hfirst : first = callAll f s vs >>= fun q => ok (x q, (unpad p q.1).map some))
    (hw' : 0 < w') (hw'' : 0 < w'') (hp : p < w') (hn : vs.length ≤ n) (hlen : n * w' + w' < c.usize)
    (hlen' : (n + 1) * w'' < c.usize) (hs' : 0 < Packable.size γ)
    (hsize' : w' * Packable.size β = w'' * Packable.size γ) (hvec : w' * Packable.size β < c.usize)
    (fuel' : Nat) (hfuel' : n < fuel') (t : τ) (g : FnMut τ (Vector β w') (Vector γ w'')) :
    (thenOn first fun mid => do
      let (_, out) ← scalarCollect c fuel' (simdMap (simdIter mid d') t g)
      ok out) = (do
      let (outs, _) ← callAll f s vs
      let (outs', _) ← callAll g t (repad p d' outs)
      ok ((unpad (p * Packable.size β / Packable.size γ) outs').map some)) := by
  unfold thenOn
  rw [hfirst]
  cases h : callAll f s vs with
  | ok q =>
    obtain ⟨outs, s'⟩ := q
    have h1 := unpad_length_le p outs
    rw [callAll_length f s _ h] at h1
    have h3 : (unpad p outs).length ≤ n * w' := Nat.le_trans h1 (Nat.mul_le_mul_right _ hn)
    have h4 : (unpad p outs).length / w' ≤ n := by
      have := Nat.div_le_div_right (c := w') h3
      rwa [Nat.mul_div_cancel _ hw'] at this
    simp only [ok_bind, readVec_some]
    rw [C05_collect_any_closure c fuel' _ d' t g hw' hw'' hs' hsize' (by omega)
      (Nat.lt_of_le_of_lt (Nat.mul_le_mul_right _ (by omega)) hlen') hvec (by omega),
      calls_unpad hw' d' hp]
    simp only [bind_assoc, ok_bind]
    rcases List.eq_nil_or_concat outs with rfl | ⟨l, u, rfl⟩
    · simp [repad, callAll, unpad, lanes]
    · rw [unpad_pad l u hp]
  | panic => rfl
  | ub => rfl
  | hang => rfl

end

section
variable {I : Type} [SIMDSized I] [SIMDIterator I α w] {S : Nat → I} {l : List α} {d : Vector α w}
  {more : Nat → Prop} [Packable α] [Packable β]

/-- **C151**, reduction after a first pass over any iterator, for example a strided one. -/
theorem C151_driver_reduce (h : Driver c S l d more) (d' : Vector β w') (s : σ)
    (f : FnMut σ (Vector α w) (Vector β w')) (fuel fuel' : Nat) (start : A) (t : τ)
    (g : τ → A → Vector β w' → Res (A × τ))
    (hw : 0 < w) (hw' : 0 < w') (hs : 0 < Packable.size β)
    (hsize : w * Packable.size α = w' * Packable.size β)
    (hlen' : (l.length / w + 1) * w' + w' < c.usize)
    (hvec : w * Packable.size α < c.usize) (hfuel : l.length / w < fuel)
    (hfuel' : l.length / w + 1 < fuel') :
    (thenOn (scalarCollect c fuel (simdMap (S 0) s f)) fun mid => do
      let (_, acc) ← simdReduce c fuel' (simdIter mid d') start t g
      ok acc) = (do
      let (outs, _) ← callAll f s (calls w d l)
      (repad (padCount w l.length (Packable.size α) (Packable.size β)) d' outs).foldlM
        (fun (q : A × τ) v => g q.2 q.1 v) (start, t)) :=
  thenOn_reduce f s _ _ _ _ _ d'
    (h.collect_map fuel s f hw hw' hs hsize (by omega) hvec hfuel) hw'
    (padCount_lt hw hs hsize hw' _) (calls_length_le d l) hlen' fuel' hfuel' start t g

/-- **C151**, collecting again, likewise. -/
theorem C151_driver_collect [Packable γ] (h : Driver c S l d more) (d' : Vector β w') (s : σ)
    (f : FnMut σ (Vector α w) (Vector β w')) (fuel fuel' : Nat) (t : τ)
    (g : FnMut τ (Vector β w') (Vector γ w''))
    (hw : 0 < w) (hw' : 0 < w') (hw'' : 0 < w'') (hs : 0 < Packable.size β) (hs' : 0 < Packable.size γ)
    (hsize : w * Packable.size α = w' * Packable.size β)
    (hsize' : w' * Packable.size β = w'' * Packable.size γ)
    (hlen' : (l.length / w + 1) * w' + w' < c.usize) (hlen'' : (l.length / w + 2) * w'' < c.usize)
    (hvec : w * Packable.size α < c.usize) (hfuel : l.length / w < fuel)
    (hfuel' : l.length / w + 1 < fuel') :
    (thenOn (scalarCollect c fuel (simdMap (S 0) s f)) fun mid => do
      let (_, out) ← scalarCollect c fuel' (simdMap (simdIter mid d') t g)
      ok out) = (do
      let (outs, _) ← callAll f s (calls w d l)
      let p := padCount w l.length (Packable.size α) (Packable.size β)
      let (outs', _) ← callAll g t (repad p d' outs)
      ok ((unpad (p * Packable.size β / Packable.size γ) outs').map some)) :=
  thenOn_collect f s _ _ _ _ _ d'
    (h.collect_map fuel s f hw hw' hs hsize (by omega) hvec hfuel) hw' hw''
    (padCount_lt hw hs hsize hw' _) (calls_length_le d l) hlen' hlen'' hs' hsize' (by omega) fuel'
    hfuel' t g

end

section
variable {I R V : Type} [SIMDSized I] [SIMDIterator I α w] [ZipRest R V]
  [LawfulRest R V δ w] {S : Nat → I} {r : R} {rows : List (α × δ)} {dv : Vector (α × δ) w}
  {more : Nat → Prop} [Packable α] [Packable β]

/-- **C151**, reduction after a first pass over a zip of any number of iterators. -/
theorem C151_zip_reduce (hd : Driver c S (rows.map Prod.fst) (dv.map Prod.fst) more)
    (hr : LawfulRest.Rep c r (rows.map Prod.snd) (dv.map Prod.snd))
    (hu : rows.length + w < c.usize) (d' : Vector β w') (s : σ)
    (f : FnMut σ (Vector α w × V) (Vector β w')) (fuel fuel' : Nat) (start : A) (t : τ)
    (g : τ → A → Vector β w' → Res (A × τ))
    (hw : 0 < w) (hw' : 0 < w') (hs : 0 < Packable.size β)
    (hsize : w * Packable.size α = w' * Packable.size β)
    (hlen' : (rows.length / w + 1) * w' + w' < c.usize)
    (hvec : w * Packable.size α < c.usize) (hfuel : rows.length / w < fuel)
    (hfuel' : rows.length / w + 1 < fuel') :
    (thenOn (do let z ← zip c (S 0) r; scalarCollect c fuel (zsimdMap z s f)) fun mid => do
      let (_, acc) ← simdReduce c fuel' (simdIter mid d') start t g
      ok acc) = (do
      let (outs, _) ← callAll f s ((calls w dv rows).map (packRow R))
      (repad (padCount w rows.length (Packable.size α) (Packable.size β)) d' outs).foldlM
        (fun (q : A × τ) v => g q.2 q.1 v) (start, t)) :=
  thenOn_reduce f s _ _ _ _ _ d'
    (zip_collect_any hd hw hr hu fuel s f hw' hs hsize (by omega) hvec hfuel) hw'
    (padCount_lt hw hs hsize hw' _) (by rw [List.length_map]; exact calls_length_le dv rows) hlen' fuel'
    hfuel' start t g

/-- **C151**, collecting again, likewise. -/
theorem C151_zip_collect [Packable γ] (hd : Driver c S (rows.map Prod.fst) (dv.map Prod.fst) more)
    (hr : LawfulRest.Rep c r (rows.map Prod.snd) (dv.map Prod.snd))
    (hu : rows.length + w < c.usize) (d' : Vector β w') (s : σ)
    (f : FnMut σ (Vector α w × V) (Vector β w')) (fuel fuel' : Nat) (t : τ)
    (g : FnMut τ (Vector β w') (Vector γ w''))
    (hw : 0 < w) (hw' : 0 < w') (hw'' : 0 < w'') (hs : 0 < Packable.size β) (hs' : 0 < Packable.size γ)
    (hsize : w * Packable.size α = w' * Packable.size β)
    (hsize' : w' * Packable.size β = w'' * Packable.size γ)
    (hlen' : (rows.length / w + 1) * w' + w' < c.usize)
    (hlen'' : (rows.length / w + 2) * w'' < c.usize)
    (hvec : w * Packable.size α < c.usize) (hfuel : rows.length / w < fuel)
    (hfuel' : rows.length / w + 1 < fuel') :
    (thenOn (do let z ← zip c (S 0) r; scalarCollect c fuel (zsimdMap z s f)) fun mid => do
      let (_, out) ← scalarCollect c fuel' (simdMap (simdIter mid d') t g)
      ok out) = (do
      let (outs, _) ← callAll f s ((calls w dv rows).map (packRow R))
      let p := padCount w rows.length (Packable.size α) (Packable.size β)
      let (outs', _) ← callAll g t (repad p d' outs)
      ok ((unpad (p * Packable.size β / Packable.size γ) outs').map some)) :=
  thenOn_collect f s _ _ _ _ _ d'
    (zip_collect_any hd hw hr hu fuel s f hw' hs hsize (by omega) hvec hfuel) hw' hw''
    (padCount_lt hw hs hsize hw' _) (by rw [List.length_map]; exact calls_length_le dv rows) hlen'
    hlen'' hs' hsize' (by omega) fuel' hfuel' t g

end

end Faster
