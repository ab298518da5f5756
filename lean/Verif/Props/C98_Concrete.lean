/-
Concrete file tables that meet the hypotheses of C98, and those that refute a part of it.
-/
import Verif.Props.C98
import Verif.Props.C97_Concrete
import Verif.Proof.SampleMFT
namespace Verif.Props
open Verif.MFT Verif.Scripts Verif.Spec.Parser Verif.Spec.MftTable Verif.Attributes

/-- A file record segment without slack space. -/
def tightSegment (number seq flags : Nat) (attrs : List Bytes) : Bytes :=
  [0x46, 0x49, 0x4C, 0x45, 48, 0, 3, 0] ++ zeros 8 ++ natLE 2 seq ++ [1, 0, 56, 0] ++ natLE 2 flags ++ natLE 4 (56 + attrs.flatten.length) ++
    natLE 4 1024 ++ zeros 12 ++ natLE 4 number ++ zeros 8 ++ attrs.flatten ++ zeros (1024 - 56 - attrs.flatten.length)

/-- A file table with the records 0, 3, 5 (the root directory), 6 and 7 (the file `/f`). -/
def fiveRecords (attrs : List Bytes) : Bytes :=
  [tightSegment 0 1 1 [], zeros 1024, zeros 1024, tightSegment 3 3 1 [mkAttr 0x70 (zeros 8 ++ [3, 1, 0, 0])], zeros 1024,
    tightSegment 5 5 3 [mkAttr 0x30 (mkName 5 5 3 ".")], tightSegment 6 1 1 attrs,
    tightSegment 7 1 1 [mkAttr 0x30 (mkName 5 5 1 "f")]].flatten

/-- The record 6 has a second attribute with a bad length. -/
def badAttribute : Bytes := fiveRecords [mkAttr 0x30 (mkName 5 5 1 "e"), [0x80, 0, 0, 0, 4, 0, 0, 0]]

/-- The record 6 has `$STANDARD_INFORMATION` of 16 bytes. -/
def shortStandard : Bytes := fiveRecords [mkAttr 0x10 (zeros 16), mkAttr 0x30 (mkName 5 5 1 "e")]

/-- The numbers and the paths in a table. -/
def numbersAndPaths (g : Gen Row) : List (Option Cell × Option Cell) × Option Exc := (g.items.tail.map fun row => (row[1]?, row[5]?), g.err)

/-- C98 does not hold as stated: the file `/e` (6), with a damaged attribute, is left out and nothing is said about it. -/
theorem C98_record_left_out : (∃ p r, Parser.init badAttribute true = .ok p ∧ p.getRecord 6 none = .ok r ∧ r.base.isInUse = true) ∧
    (processMft badAttribute none true).err = none ∧
    ∀ row ∈ (processMft badAttribute none true).items, row[1]? ≠ some (.int (6 + 2 ^ 48)) := by
  refine ⟨?_, ?_⟩
  · have h : (match Parser.init badAttribute true with
      | .ok p => (match p.getRecord 6 none with
        | .ok r => r.base.isInUse
        | .error _ => false)
      | .error _ => false) = true := by decide +kernel
    cases h1 : Parser.init badAttribute true with
    | error e => rw [h1] at h; cases h
    | ok p =>
      rw [h1] at h
      dsimp only at h
      cases h2 : p.getRecord 6 none with
      | error e => rw [h2] at h; cases h
      | ok r => rw [h2] at h; exact ⟨p, r, rfl, h2, h⟩
  · have h : ((processMft badAttribute none true).err == none &&
      (processMft badAttribute none true).items.all fun row => decide (row[1]? ≠ some (.int (6 + 2 ^ 48)))) = true := by decide +kernel
    rw [Bool.and_eq_true, List.all_eq_true] at h
    exact ⟨by simpa using h.1, fun row hr => of_decide_eq_true (h.2 row hr)⟩

/-- C98 does not hold as stated: a short attribute stops the program at the record 6, and the record 7 is not listed. -/
theorem C98_listing_stops : numbersAndPaths (processMft shortStandard none true) =
    ([(some (.int (0 + 2 ^ 48)), some (.str [])), (some (.int (3 + 3 * 2 ^ 48)), some (.str [])),
      (some (.int (5 + 5 * 2 ^ 48)), some (.str (Str.ofString "/.")))], some .StructError) := by decide +kernel

/-! ### The hypotheses of `C98_complete_partial` are met -/

def attributeCheck : AttributeRecord → Bool
  | .resident t _ v => t != 0xA0 && (t != 0xE0 || (eaParsed v).all fun ea => !decide (IsLinux ea) || (linuxTimesOf ea).isSome) &&
      (t != 0x90 || decide (4 ≤ v.length))
  | _ => true

/-- A check for a record to be tabular. -/
def tabularCheck (r : FileRecord) : Bool :=
  decide (r.attributes.err = none) && r.attributes.items.all attributeCheck && (fileNames r.attributes.items).all (fun v => decide (66 ≤ v.length)) &&
  (match r.attributes.items.findSome? standardValue with
  | none => true
  | some v => decide (32 ≤ v.length)) &&
  (match r.attributes.items.findSome? nameIndex with
  | none => true
  | some v => decide ((indexRootEntries v).err = none) && (indexRootEntries v).items.all fun e => decide (16 ≤ e.raw.length) &&
      (match entryName e.raw with
      | none => true
      | some a => decide (66 ≤ a.length)))

theorem tabular_of_check {r : FileRecord} (h : tabularCheck r = true) : Tabular r := by
  unfold tabularCheck at h
  simp only [Bool.and_eq_true, decide_eq_true_eq, List.all_eq_true] at h
  obtain ⟨⟨⟨⟨h1, h2⟩, h3⟩, h4⟩, h5⟩ := h
  have key : ∀ t n v, .resident t n v ∈ r.attributes.items → attributeCheck (.resident t n v) = true := fun t n v hm => h2 _ hm
  refine ⟨⟨h1, ?_, h3⟩, ?_, ?_, ?_, ?_⟩
  · rintro a ha n v rfl
    have := h2 _ ha
    cases this
  · intro v hv
    rw [hv] at h4
    exact of_decide_eq_true h4
  · intro n v hm ea hea hl
    have := key _ _ _ hm
    unfold attributeCheck at this
    simp only [Bool.and_eq_true, Bool.or_eq_true, List.all_eq_true, Bool.not_eq_true', decide_eq_false_iff_not] at this
    rcases this.1.2 with h | h
    · cases h
    · rcases h ea hea with h | h
      · exact absurd hl h
      · intro hn; rw [hn] at h; cases h
  · intro _ n v hm
    have := key _ _ _ hm
    unfold attributeCheck at this
    simp only [Bool.and_eq_true, Bool.or_eq_true] at this
    rcases this.2 with h | h
    · cases h
    · exact of_decide_eq_true h
  · intro _ v hv
    rw [hv] at h5
    simp only [Bool.and_eq_true, decide_eq_true_eq, List.all_eq_true] at h5
    refine ⟨h5.1, fun e he => ⟨(h5.2 e he).1, fun a ha => ?_⟩⟩
    have := (h5.2 e he).2
    rw [ha] at this
    exact of_decide_eq_true this

/-- The record 6 is the file `/e`, of 11 bytes. -/
def goodRecords : Bytes :=
  fiveRecords [mkAttr 0x10 (zeros 72), mkAttr 0x30 (mkName 5 5 1 "e"), mkAttr 0x80 (zeros 11)]

example : UsableTable goodRecords 1024 ∧ (match Parser.init goodRecords true with
    | .ok p => decide (p.size = 1024) && p.fileRecords.items.length == 5 && p.fileRecords.items.all tabularCheck
    | .error _ => false) = true :=
  ⟨usable_of_check (by decide) (by decide +kernel) (by decide +kernel), by decide +kernel⟩

/-- The rows of the file `/e`: its number, path, USN and size. -/
example : ((processMft goodRecords (some (Str.ofString "x")) true).items[4]?.map fun row => [row[0]?, row[1]?, row[5]?, row[10]?, row[16]?]) =
    some [some (.str (Str.ofString "File record (x)")), some (.int (6 + 2 ^ 48)), some (.str (Str.ofString "/e")), some (.int 0), some (.str (Str.ofString "11"))] := by
  decide +kernel

end Verif.Props
