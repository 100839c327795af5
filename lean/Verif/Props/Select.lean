import Verif.Select
/-
Every element type has exactly one vector type (C62).
-/
namespace Faster

theorem off_length : (∀ r ∈ packedRows, r.off.length = 1) ∧ ∀ r ∈ packedRowsUnknown, r.off.length = 1 := by
  decide +kernel

/-- The features mentioned in src/arch/x86/vecs.rs. -/
def features3 (a b c : Bool) (s : String) : Bool :=
  if s = "avx2" then a else if s = "avx512" then b else if s = "avx1024" then c else false

theorem features_named : ∀ r ∈ packedRows, ∀ s ∈ r.on ++ r.off, s = "avx2" ∨ s = "avx512" ∨ s = "avx1024" := by
  decide +kernel

theorem active_congr {F G : String → Bool} (r : PackedRow) (h : ∀ s ∈ r.on ++ r.off, F s = G s) :
    r.active F = r.active G := by
  have h1 : r.on.all F = r.on.all G := by
    rw [Bool.eq_iff_iff]
    simp only [List.all_eq_true]
    exact forall_congr' fun s => forall_congr' fun hs => by rw [h s (by simp [hs])]
  have h2 : r.off.any F = r.off.any G := by
    rw [Bool.eq_iff_iff]
    simp only [List.any_eq_true]
    exact exists_congr fun s => and_congr_right fun hs => by rw [h s (by simp [hs])]
  simp [PackedRow.active, h1, h2]

theorem selected_congr (F : String → Bool) (el : String) :
    selected packedRows F el =
      selected packedRows (features3 (F "avx2") (F "avx512") (F "avx1024")) el := by
  apply List.filter_congr
  intro r hr
  congr 1
  apply active_congr
  intro s hs
  rcases features_named r hr s hs with h | h | h <;> subst h <;> simp [features3]

/-- The number of bytes in the vectors selected for a set of features. -/
def vectorBytes (F : String → Bool) : Nat :=
  if F "avx512" then 64 else if F "avx2" then 32 else 16

theorem selected_bool : ∀ el ∈ elements, ∀ a b : Bool, (b = true → a = true) →
    (∃ r, selected packedRows (features3 a b false) el = [r] ∧
      r.alias = el ++ "s" ∧ r.vec = el ++ "x" ++ toString r.width ∧ r.size = r.elSize ∧
      r.width * r.elSize = vectorBytes (features3 a b false)) := by
  have key : ∀ el ∈ elements, ∀ a b : Bool, (b = true → a = true) →
      (match selected packedRows (features3 a b false) el with
        | [r] => decide (r.alias = el ++ "s" ∧ r.vec = el ++ "x" ++ toString r.width ∧ r.size = r.elSize ∧
          r.width * r.elSize = vectorBytes (features3 a b false))
        | _ => false) = true := by
    decide +kernel
  intro el hel a b hab
  have := key el hel a b hab
  split at this
  · next r hr => exact ⟨r, hr, of_decide_eq_true this⟩
  · cases this

/-- C62, x86: for every set of target features where AVX-512 implies AVX2 (and the
fictitious "avx1024" is off), every element type has exactly one vector type; it
is the type named after the element type and its number of lanes, and all the
selected types have the same number of bytes. -/
theorem C62_x86 (F : String → Bool) (h : F "avx512" = true → F "avx2" = true)
    (h' : F "avx1024" = false) (el : String) (hel : el ∈ elements) :
    ∃ r, selected packedRows F el = [r] ∧
      r.alias = el ++ "s" ∧ r.vec = el ++ "x" ++ toString r.width ∧ r.size = r.elSize ∧
      r.width * r.elSize = vectorBytes F := by
  obtain ⟨r, hr, h1, h2, h3, h4⟩ := selected_bool el hel (F "avx2") (F "avx512") h
  rw [selected_congr, h']
  refine ⟨r, hr, h1, h2, h3, h4.trans ?_⟩
  simp [vectorBytes, features3]

/-- C62, other targets: 16-byte vectors for every element type, provided no feature
is called "undefined". -/
theorem C62_unknown (F : String → Bool) (h : F "undefined" = false) (el : String) (hel : el ∈ elements) :
    ∃ r, selected packedRowsUnknown F el = [r] ∧
      r.alias = el ++ "s" ∧ r.vec = el ++ "x" ++ toString r.width ∧ r.size = r.elSize ∧
      r.width * r.elSize = 16 := by
  have hact : ∀ r ∈ packedRowsUnknown, r.active F = true := by
    have : ∀ r ∈ packedRowsUnknown, r.on = [] ∧ r.off = ["undefined"] := by decide +kernel
    intro r hr
    obtain ⟨h1, h2⟩ := this r hr
    simp [PackedRow.active, h1, h2, h]
  have hsel : selected packedRowsUnknown F el = packedRowsUnknown.filter fun r => r.el = el := by
    apply List.filter_congr
    intro r hr
    simp [hact r hr]
  rw [hsel]
  have key : ∀ el ∈ elements,
      (match packedRowsUnknown.filter fun r => r.el = el with
        | [r] => decide (r.alias = el ++ "s" ∧ r.vec = el ++ "x" ++ toString r.width ∧ r.size = r.elSize ∧
          r.width * r.elSize = 16)
        | _ => false) = true := by
    decide +kernel
  have := key el hel
  split at this
  · next r hr => exact ⟨r, hr, of_decide_eq_true this⟩
  · cases this

/-- C62: `WIDTH` and `SIZE` given to the macro are those of the types, for every vector
type, whichever features are enabled; no type is listed twice. -/
theorem C62_constants :
    (∀ r ∈ packedRows ++ packedRowsUnknown, r.width = r.lanes ∧ r.size = r.elSize ∧
      r.vec = r.el ++ "x" ++ toString r.lanes ∧ r.el ∈ elements) ∧
    (packedRows.map (·.vec)).Nodup ∧ packedRows.length = 30 ∧ (packedRowsUnknown.map (·.vec)).Nodup := by
  decide +kernel

/-- The features of a machine with AVX2. -/
example : (selected packedRows (fun s => s ∈ ["sse2", "sse4.1", "avx", "avx2"]) "f32").map (·.vec) = ["f32x8"] := by
  decide +kernel

/-- Without the hypothesis the claim fails: AVX-512 without AVX2 selects two types. -/
example : (selected packedRows (fun s => s = "avx512") "f32").map (·.vec) = ["f32x16", "f32x4"] := by
  decide +kernel

end Faster
