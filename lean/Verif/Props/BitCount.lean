import Verif.Props.CompareSlices
/-
C159: the number of set bits of a slice, and of bits in which two slices differ.
-/
namespace Faster
open Res

variable {n w : Nat} {c : Cfg}

/-- `slice.simd_iter(d).simd_reduce(0usize, |acc, v| acc + v.count_ones())`. -/
def sliceOnes (c : Cfg) (fuel : Nat) (ones : Vector (BitVec n) w → Res Nat) (data : List (BitVec n))
    (d : Vector (BitVec n) w) : Res Nat := do
  let (_, acc, _) ← simdReduce c fuel (simdIter data d) 0 () fun _ acc v => do
    let k ← ones v
    let s ← uadd c acc k
    ok (s, ())
  ok acc

/-- `(xs.simd_iter(dx), ys.simd_iter(dy)).zip().simd_reduce(0usize, |acc, (u, v)| acc +
(u ^ v).count_ones())`. -/
def sliceDistance (c : Cfg) (fuel : Nat) (ones : Vector (BitVec n) w → Res Nat) (xs ys : List (BitVec n))
    (dx dy : Vector (BitVec n) w) : Res Nat := do
  let z ← zip c (simdIter xs dx) (simdIter ys dy, ())
  let (_, acc, _) ← zsimdReduce c fuel z 0 ()
    fun _ acc (v : Vector (BitVec n) w × Vector (BitVec n) w × Unit) => do
      let k ← ones (v.1.zipWith (· ^^^ ·) v.2.1)
      let s ← uadd c acc k
      ok (s, ())
  ok acc

/-- Specification: the number of set bits of all elements. -/
def setBits (l : List (BitVec n)) : Nat := (l.map onesOf).sum

theorem onesOf_le (x : BitVec n) : onesOf x ≤ n := by
  unfold onesOf
  exact Nat.le_trans List.countP_le_length (by simp)

theorem onesOf_eq_zero {x : BitVec n} : onesOf x = 0 ↔ x = 0 := by
  constructor
  · intro h
    unfold onesOf at h
    rw [List.countP_eq_zero] at h
    apply BitVec.eq_of_getLsbD_eq
    intro k hk
    have := h k (List.mem_range.2 hk)
    simpa using this
  · rintro rfl; exact onesOf_zero

theorem setBits_append (l l' : List (BitVec n)) : setBits (l ++ l') = setBits l + setBits l' := by
  simp [setBits]

theorem setBits_le (l : List (BitVec n)) : setBits l ≤ n * l.length := by
  induction l with
  | nil => simp [setBits]
  | cons x l ih =>
    have h : setBits (x :: l) = onesOf x + setBits l := by simp [setBits]
    have := onesOf_le x
    rw [h, List.length_cons, Nat.mul_succ]
    omega

theorem setBits_eq_zero {l : List (BitVec n)} : setBits l = 0 ↔ ∀ x ∈ l, x = 0 := by
  induction l with
  | nil => simp [setBits]
  | cons x l ih =>
    have h : setBits (x :: l) = onesOf x + setBits l := by simp [setBits]
    rw [h, Nat.add_eq_zero_iff, onesOf_eq_zero, ih]
    simp

theorem lanes_calls_bits (hw : 0 < w) (d : Vector (BitVec n) w) (l : List (BitVec n)) :
    setBits (lanes (calls w d l)) = setBits l + setBits (padding w d l) := by
  have hp : (lanes (calls w d l)).Perm (l ++ padding w d l) := by
    rw [List.perm_iff_count]
    intro x
    rw [lanes_calls_count hw, List.count_append]
  rw [← setBits_append]
  exact (hp.map _).sum_eq

theorem padding_length_le {α : Type} (d : Vector α w) (l : List α) : (padding w d l).length ≤ w := by
  unfold padding; split <;> simp

theorem ones_fold {ones : Vector (BitVec n) w → Res Nat} (hones : OnesOp ones)
    (vs : List (Vector (BitVec n) w)) : ∀ acc : Nat, acc + setBits (lanes vs) < c.usize →
    vs.foldlM (fun (p : Nat × Unit) v => (do
      let k ← ones v
      let s ← uadd c p.1 k
      ok (s, ()) : Res (Nat × Unit))) (acc, ()) = ok (acc + setBits (lanes vs), ()) := by
  induction vs with
  | nil => intro acc _; simp [setBits]
  | cons v vs ih =>
    intro acc h
    rw [lanes_cons, setBits_append] at h ⊢
    have hv : vecOnes v = setBits v.toList := rfl
    have hadd : uadd c acc (setBits v.toList) = ok (acc + setBits v.toList) := by
      unfold uadd
      rw [if_pos (by omega)]
    rw [List.foldlM_cons]
    simp only [hones v, hv, hadd, ok_bind]
    rw [ih _ (by omega), Nat.add_assoc]

/-- **C159**: the set bits of the elements and of the lanes of the default vector which fill the last
vector. -/
theorem C159_ones (hw : 0 < w) (hn : 0 < n) {ones : Vector (BitVec n) w → Res Nat} (hones : OnesOp ones)
    (fuel : Nat) (data : List (BitVec n)) (d : Vector (BitVec n) w)
    (hlen : n * (data.length + w) < c.usize) (hfuel : data.length / w < fuel) :
    sliceOnes c fuel ones data d = ok (setBits data + setBits (padding w d data)) := by
  have hlen' : data.length + w < c.usize := Nat.lt_of_le_of_lt (Nat.le_mul_of_pos_left _ hn) hlen
  have hb := lanes_calls_bits hw d data
  have h1 := setBits_le data
  have h2 := Nat.le_trans (setBits_le (padding w d data)) (Nat.mul_le_mul_left n (padding_length_le d data))
  rw [Nat.mul_add] at hlen
  have h := ones_fold (c := c) hones (calls w d data) 0 (by omega)
  unfold sliceOnes
  rw [C03_reduce_fold c fuel data d 0 () _ hw hlen' hfuel]
  have h' : (do
      let (acc, st') ← (calls w d data).foldlM (fun (p : Nat × Unit) v => (do
        let k ← ones v
        let s ← uadd c p.1 k
        ok (s, ()) : Res (Nat × Unit))) (0, ())
      ok ((⟨data.length, ⟨data⟩, d⟩ : SIMDIter (Slice (BitVec n) w) (BitVec n) w), acc, st')) =
      ok (⟨data.length, ⟨data⟩, d⟩, setBits (lanes (calls w d data)), ()) := by
    rw [h, Nat.zero_add]; rfl
  rw [h']
  simp only [ok_bind, hb]

/-- **C159**: exactly the set bits of the elements if and only if the lanes which fill the last vector
are zero. -/
theorem C159_ones_iff (hw : 0 < w) (hn : 0 < n) {ones : Vector (BitVec n) w → Res Nat}
    (hones : OnesOp ones) (fuel : Nat) (data : List (BitVec n)) (d : Vector (BitVec n) w)
    (hlen : n * (data.length + w) < c.usize) (hfuel : data.length / w < fuel) :
    sliceOnes c fuel ones data d = ok (setBits data) ↔ ∀ x ∈ padding w d data, x = 0 := by
  rw [C159_ones hw hn hones fuel data d hlen hfuel, ← setBits_eq_zero]
  simp

theorem calls_xor (hw : 0 < w) (dx dy : Vector (BitVec n) w) {xs ys : List (BitVec n)}
    (h : xs.length = ys.length) :
    List.zipWith (fun u v : Vector (BitVec n) w => u.zipWith (· ^^^ ·) v) (calls w dx xs) (calls w dy ys) =
      calls w (dx.zipWith (· ^^^ ·) dy) (List.zipWith (· ^^^ ·) xs ys) := by
  let d := Vector.zipWith (fun a b => (a, b)) dx dy
  have e1 : (xs.zip ys).map Prod.fst = xs := List.map_fst_zip (by omega)
  have e2 : (xs.zip ys).map Prod.snd = ys := List.map_snd_zip (by omega)
  have e3 : d.map Prod.fst = dx := by ext1 i hi; simp [d]
  have e4 : d.map Prod.snd = dy := by ext1 i hi; simp [d]
  have e5 : d.map (fun p => p.1 ^^^ p.2) = dx.zipWith (· ^^^ ·) dy := by ext1 i hi; simp [d]
  have e6 : (xs.zip ys).map (fun p => p.1 ^^^ p.2) = List.zipWith (· ^^^ ·) xs ys := by
    rw [List.zip, List.map_zipWith]
  have h1 := calls_map hw Prod.fst d (xs.zip ys)
  have h2 := calls_map hw Prod.snd d (xs.zip ys)
  have h3 := calls_map hw (fun p => p.1 ^^^ p.2) d (xs.zip ys)
  rw [e1, e3] at h1
  rw [e2, e4] at h2
  rw [e5, e6] at h3
  rw [h1, h2, h3, List.zipWith_map, List.zipWith_self]
  apply List.map_congr_left
  intro v _
  ext1 i hi
  simp

theorem padding_xor (dx dy : Vector (BitVec n) w) {xs ys : List (BitVec n)} (h : xs.length = ys.length) :
    padding w (dx.zipWith (· ^^^ ·) dy) (List.zipWith (· ^^^ ·) xs ys) =
      List.zipWith (· ^^^ ·) (padding w dx xs) (padding w dy ys) := by
  unfold padding
  rw [List.length_zipWith, h, Nat.min_self]
  split
  · rfl
  · rw [← List.take_zipWith]
    congr 1
    apply List.ext_getElem <;> simp

/-- **C159**: the number of bits in which the slices differ, and the default vectors in the lanes which
fill the last vectors. -/
theorem C159_distance (hw : 0 < w) (hn : 0 < n) {ones : Vector (BitVec n) w → Res Nat}
    (hones : OnesOp ones) (fuel : Nat) (xs ys : List (BitVec n)) (dx dy : Vector (BitVec n) w)
    (h : xs.length = ys.length) (hlen : n * (xs.length + w) < c.usize) (hfuel : xs.length / w < fuel) :
    sliceDistance c fuel ones xs ys dx dy = ok (setBits (List.zipWith (· ^^^ ·) xs ys) +
      setBits (List.zipWith (· ^^^ ·) (padding w dx xs) (padding w dy ys))) := by
  have hlen' : xs.length + w < c.usize := Nat.lt_of_le_of_lt (Nat.le_mul_of_pos_left _ hn) hlen
  have h1 := C24_zip_reduce (c := c) (xs := xs) (ys := ys) (dx := dx) (dy := dy) fuel 0 ()
    (fun _ acc (v : Vector (BitVec n) w × Vector (BitVec n) w × Unit) => (do
      let k ← ones (v.1.zipWith (· ^^^ ·) v.2.1)
      let s ← uadd c acc k
      ok (s, ()) : Res (Nat × Unit))) h hw hlen' hfuel
  have key (us vs : List (Vector (BitVec n) w)) : ∀ p : Nat × Unit,
      (List.zipWith (fun u v => (u, v, ())) us vs).foldlM
        (fun (p : Nat × Unit) (v : Vector (BitVec n) w × Vector (BitVec n) w × Unit) => (do
          let k ← ones (v.1.zipWith (· ^^^ ·) v.2.1)
          let s ← uadd c p.1 k
          ok (s, ()) : Res (Nat × Unit))) p =
      (List.zipWith (fun u v : Vector (BitVec n) w => u.zipWith (· ^^^ ·) v) us vs).foldlM
        (fun (p : Nat × Unit) v => (do
          let k ← ones v
          let s ← uadd c p.1 k
          ok (s, ()) : Res (Nat × Unit))) p := by
    induction us generalizing vs with
    | nil => intro p; simp
    | cons u us ih =>
      intro p
      match vs with
      | [] => simp
      | v :: vs =>
        rw [List.zipWith_cons_cons, List.zipWith_cons_cons, List.foldlM_cons, List.foldlM_cons]
        congr 1
        funext q
        exact ih vs q
  have hb := lanes_calls_bits hw (dx.zipWith (· ^^^ ·) dy) (List.zipWith (· ^^^ ·) xs ys)
  rw [padding_xor dx dy h] at hb
  have h2 := setBits_le (List.zipWith (· ^^^ ·) xs ys)
  have h3 := setBits_le (List.zipWith (· ^^^ ·) (padding w dx xs) (padding w dy ys))
  have h4 : n * (List.zipWith (· ^^^ ·) (padding w dx xs) (padding w dy ys)).length ≤ n * w :=
    Nat.mul_le_mul_left n (by
      have := padding_length_le dx xs
      rw [List.length_zipWith]; omega)
  rw [List.length_zipWith, ← h, Nat.min_self] at h2
  rw [Nat.mul_add] at hlen
  rw [key, calls_xor hw dx dy h, ones_fold (c := c) hones _ 0 (by omega), hb, Nat.zero_add] at h1
  have h5 := congrArg (· >>= fun p => ok p.1) h1
  simp only [bind_assoc, ok_bind] at h5
  unfold sliceDistance
  exact h5

/-- **C159**, partial: the number of bits in which the slices differ, with one default vector for both.
Missing: other defaults (`C159_false`). -/
theorem C159_distance_partial (hw : 0 < w) (hn : 0 < n) {ones : Vector (BitVec n) w → Res Nat}
    (hones : OnesOp ones) (fuel : Nat) (xs ys : List (BitVec n)) (d : Vector (BitVec n) w)
    (h : xs.length = ys.length) (hlen : n * (xs.length + w) < c.usize) (hfuel : xs.length / w < fuel) :
    sliceDistance c fuel ones xs ys d d = ok (setBits (List.zipWith (· ^^^ ·) xs ys)) := by
  rw [C159_distance hw hn hones fuel xs ys d d h hlen hfuel, (setBits_eq_zero.2 _ : setBits (List.zipWith
    (· ^^^ ·) (padding w d xs) (padding w d ys)) = 0), Nat.add_zero]
  have : padding w d xs = padding w d ys := by unfold padding; rw [h]
  rw [this, List.zipWith_self]
  intro x hx
  obtain ⟨y, -, rfl⟩ := List.mem_map.1 hx
  simp

/-- **C159** is false for other defaults: the bits of one byte counted with minus one as default are
eight for every missing element too. -/
theorem C159_false {ones : Vector (BitVec 8) w → Res Nat} (hones : OnesOp ones) (hw : 1 < w)
    (hu : 8 * (1 + w) < c.usize) :
    sliceOnes c 9 ones [7#8] (Packed.splat 255#8) = ok (3 + 8 * (w - 1)) ∧ setBits [7#8] = 3 := by
  have h3 : setBits [7#8] = 3 := by decide
  refine ⟨?_, h3⟩
  have h1 : 1 % w = 1 := Nat.mod_eq_of_lt hw
  rw [C159_ones (by omega) (by decide) hones 9 [7#8] _ hu (by simp [Nat.div_eq_of_lt hw]), h3]
  congr 2
  simp only [padding, List.length_cons, List.length_nil, Nat.zero_add, h1]
  rw [if_neg (by decide), Packed.splat, Vector.toList_replicate, List.take_replicate,
    Nat.min_eq_left (by omega)]
  have : onesOf 255#8 = 8 := by decide
  simp [setBits, this, Nat.mul_comm]

/-- The hypotheses can be met: `u8x16` with SSSE3. -/
example : sliceDistance release64 9 (n := 8) (w := 16)
    (fun v => popcntShuffle release64 [0, 4] (reinterpret v : Vector (BitVec 8) 16))
    [1, 2, 3] [1, 3, 4] (Packed.splat 9) (Packed.splat 9) = ok 4 :=
  C159_distance_partial (n := 8) (w := 16) (by decide) (by decide)
    ((C154_versions release64).2.2.1 16 [0, 4] 8 16 .sse (by decide) rfl) 9 [1, 2, 3] [1, 3, 4] _ rfl
    (by decide) (by decide)

end Faster
