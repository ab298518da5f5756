/-
C114: the attributes of files on FAT and exFAT volumes as text, and the volumes with an unusual number of clusters.
-/
import Verif.Model.FAT.Marks
namespace Verif.Props.FatText
open Verif.FAT

/-- The documented bits of the attributes on FAT volumes. -/
def documentedFat : List (Nat × String) := [(0, "READ_ONLY"), (1, "HIDDEN"), (2, "SYSTEM"), (3, "VOLUME_ID"), (4, "DIRECTORY"), (5, "ARCHIVE")]

/-- Those on exFAT volumes; bit 3 is reserved, and set by macOS. -/
def documentedExFat : List (Nat × String) := [(0, "READ_ONLY"), (1, "HIDDEN"), (2, "SYSTEM"), (3, "UNKNOWN8_MACOS"), (4, "DIRECTORY"), (5, "ARCHIVE")]

private theorem mask_pos (v i : Nat) : (v &&& 2 ^ i > 0) ↔ v.testBit i = true := by
  constructor
  · intro h
    cases hb : v.testBit i with
    | true => rfl
    | false =>
      exfalso
      have : v &&& 2 ^ i = 0 := by
        apply Nat.eq_of_testBit_eq
        intro j
        rw [Nat.testBit_and, Nat.testBit_two_pow, Nat.zero_testBit]
        by_cases hj : i = j
        · subst hj; simp [hb]
        · simp [hj]
      omega
  · intro h
    apply Nat.pos_of_ne_zero
    intro h0
    have := congrArg (fun x => Nat.testBit x i) h0
    simp [Nat.testBit_and, Nat.testBit_two_pow_self, h] at this

private theorem names_of (v : Nat) : ∀ l : List (Nat × String),
    attrNames v (l.map fun p => (2 ^ p.1, p.2)) = (l.filter fun p => v.testBit p.1).map fun p => Str.ofString p.2
  | [] => rfl
  | (i, name) :: l => by
    rw [List.map_cons, attrNames, List.filter_cons, names_of v l]
    cases hb : v.testBit i with
    | true => rw [if_pos ((mask_pos v i).mpr hb), if_pos rfl]; rfl
    | false => rw [if_neg (fun h => by rw [(mask_pos v i).mp h] at hb; cases hb), if_neg (by decide)]

/-- **The text has the name of each documented bit that is set**, by increasing value, and nothing else. -/
theorem C114_text (v : Nat) :
    resolveAttributes fileAttrList v = pyJoin (Str.ofString " | ") ((documentedFat.filter fun p => v.testBit p.1).map fun p => Str.ofString p.2) ∧
    resolveAttributes fileAttrListExFAT v =
      pyJoin (Str.ofString " | ") ((documentedExFat.filter fun p => v.testBit p.1).map fun p => Str.ofString p.2) :=
  ⟨congrArg _ (names_of v documentedFat), congrArg _ (names_of v documentedExFat)⟩

private theorem low_bits (v w : Nat) (h : ∀ i < 6, v.testBit i = w.testBit i) : v % 64 = w % 64 := by
  apply Nat.eq_of_testBit_eq
  intro j
  rw [show 64 = 2 ^ 6 by decide, Nat.testBit_mod_two_pow, Nat.testBit_mod_two_pow]
  by_cases hj : j < 6
  · rw [h j hj]
  · simp [hj]

private theorem bits_low (v : Nat) : ∀ i < 6, (v % 64).testBit i = v.testBit i := fun i hi => by
  rw [show 64 = 2 ^ 6 by decide, Nat.testBit_mod_two_pow]
  simp [hi]

private theorem filter_low (l : List (Nat × String)) (hl : ∀ p ∈ l, p.1 < 6) (v : Nat) :
    (l.filter fun p => v.testBit p.1) = l.filter fun p => (v % 64).testBit p.1 :=
  List.filter_congr fun p hp => (bits_low v p.1 (hl p hp)).symm

/-- The 64 texts are different (each is the list of the names joined with a separator that no name has). -/
private theorem texts_differ : (∀ a < 64, ∀ b < 64, resolveAttributes fileAttrList a = resolveAttributes fileAttrList b → a = b) ∧
    ∀ a < 64, ∀ b < 64, resolveAttributes fileAttrListExFAT a = resolveAttributes fileAttrListExFAT b → a = b := by
  constructor <;> decide +kernel

/-- **The text determines the documented bits**, and depends on nothing else. -/
theorem C114_injective (v w : Nat) :
    (resolveAttributes fileAttrList v = resolveAttributes fileAttrList w ↔ ∀ i < 6, v.testBit i = w.testBit i) ∧
    (resolveAttributes fileAttrListExFAT v = resolveAttributes fileAttrListExFAT w ↔ ∀ i < 6, v.testBit i = w.testBit i) := by
  have hlow : ∀ u, resolveAttributes fileAttrList u = resolveAttributes fileAttrList (u % 64) := fun u => by
    rw [(C114_text u).1, (C114_text (u % 64)).1, filter_low documentedFat (by decide)]
  have hlow' : ∀ u, resolveAttributes fileAttrListExFAT u = resolveAttributes fileAttrListExFAT (u % 64) := fun u => by
    rw [(C114_text u).2, (C114_text (u % 64)).2, filter_low documentedExFat (by decide)]
  have back : v % 64 = w % 64 → ∀ i < 6, v.testBit i = w.testBit i := fun h i hi => by rw [← bits_low v i hi, h, bits_low w i hi]
  constructor
  · constructor
    · intro h
      rw [hlow v, hlow w] at h
      exact back (texts_differ.1 _ (Nat.mod_lt _ (by decide)) _ (Nat.mod_lt _ (by decide)) h)
    · intro h
      rw [hlow v, hlow w, low_bits v w h]
  · constructor
    · intro h
      rw [hlow' v, hlow' w] at h
      exact back (texts_differ.2 _ (Nat.mod_lt _ (by decide)) _ (Nat.mod_lt _ (by decide)) h)
    · intro h
      rw [hlow' v, hlow' w, low_bits v w h]

example : resolveAttributes fileAttrList 0x16 = Str.ofString "HIDDEN | SYSTEM | DIRECTORY" ∧
    resolveAttributes fileAttrListExFAT 0x28 = Str.ofString "UNKNOWN8_MACOS | ARCHIVE" ∧ resolveAttributes fileAttrList 0xC0 = [] := by decide +kernel

/-- The first number of clusters with which a volume without a 32-bit table is FAT16: in the specification, in Windows, in FreeBSD, and in the
books that reserve the 16 highest numbers. -/
def firstFat16 : List Int := [4085, 4087, 4084, 4079]

/-- **The warning** is given exactly when some of these rules take the volume for FAT12 and others for FAT16. -/
theorem C114_unusual (n : Int) : isUnusual12Or16 n = true ↔ ∃ t ∈ firstFat16, ∃ t' ∈ firstFat16, n < t ∧ ¬ n < t' := by
  simp only [isUnusual12Or16, decide_eq_true_eq, firstFat16, List.mem_cons, List.not_mem_nil, or_false, exists_eq_or_imp, exists_eq_left]
  omega

example : isUnusual12Or16 4086 = true ∧ isUnusual12Or16 4087 = false ∧ isUnusual12Or16 (-1) = false := by decide

end Verif.Props.FatText
