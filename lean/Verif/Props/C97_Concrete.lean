/-
Concrete journals and file tables that meet the hypotheses of C97, and those that refute a part of it.
-/
import Verif.Props.C97
import Verif.Props.C16_C20_Concrete
namespace Verif.Props
open Verif.MFT Verif.USN Verif.Spec.Parser Verif.Scripts Verif.Spec.USN
open Verif.Spec (UsnTable.PathFor UsnTable.NameInside)

/-- A record of 64 bytes about the file with this reference, with the name `a`. -/
def recordAbout (reference nameLength : Nat) : Bytes :=
  natLE 4 64 ++ natLE 2 2 ++ natLE 2 0 ++ natLE 8 reference ++ natLE 8 0x5000000000005 ++ natLE 8 96 ++ natLE 8 0 ++
    natLE 4 0x100 ++ natLE 4 0 ++ zeros 8 ++ natLE 2 nameLength ++ natLE 2 60 ++ natLE 4 0x61

def twoRecords : Bytes := recordAbout 0x2000000000006 2 ++ recordAbout 0x1000000000006 2
def badThenGood : Bytes := recordAbout 0x2000000000006 6 ++ recordAbout 0x2000000000006 2

/-- The table of two records: the first one is about the file 6 with the sequence number 2, which has the path `/g`; the second one is about
an earlier file with the number 6: it has no path. -/
example : (processUsn twoRecords (sampleTable 3)).map (fun g => (g.items.tail.map (·.drop 6), g.err)) = some
    ([[.str (Str.ofString "a"), .str (Str.ofString "/g")], [.str (Str.ofString "a"), .str []]], none) := by decide +kernel

/-- C97 does not hold as stated: a record with a bad name stops the program, and the records after it are not listed. -/
theorem C97_one_record_stops : ∃ journal mft p records, Parser.init mft true = .ok p ∧
    usnRecords journal = some ⟨records, none⟩ ∧ records.length = 2 ∧ processUsn journal mft = some ⟨[Spec.UsnTable.header], some .ValueError⟩ := by
  obtain ⟨g, h1, h2, -⟩ := C28_sound badThenGood
  obtain ⟨items, err⟩ := g
  dsimp only at h2
  subst h2
  have hlen : (usnRecords badThenGood).map (·.items.length) = some 2 := by decide +kernel
  rw [h1] at hlen
  exact ⟨badThenGood, sampleTable 3, _, items, sampleTable_parser, h1, by simpa using hlen, by decide +kernel⟩

/-- A check that decides whether a table is usable. -/
def usableCheck (file : Bytes) (size : Nat) : Bool :=
  (List.range (file.length / size)).all fun k =>
    match segmentAt file size k with
    | none => true
    | some base => baseOf base != 0 ||
      (let r : FileRecord := ⟨base, (childrenOf file size (ownReference base k)).filterMap (segmentAt file size)⟩
       decide (r.attributes.err = none) && r.attributes.items.all (fun a => match a with
         | .resident 0xA0 _ _ => false
         | _ => true) && (fileNames r.attributes.items).all (fun v => decide (66 ≤ v.length)) &&
       (!(flagsOf base).testBit 1 || decide (fileNames r.attributes.items ≠ [])))

theorem usable_of_check {file : Bytes} {size : Nat} (h0 : 256 ≤ size) (hdvd : size ∣ file.length) (h : usableCheck file size = true) :
    UsableTable file size := by
  rintro k s ⟨base, children⟩ ⟨h1, h2, -, h4⟩
  dsimp only at h1 h2 h4
  have hk : k < file.length / size := by
    refine Nat.lt_of_not_le fun hle => ?_
    have : slice file (k * size) (k * size + size) = [] := by
      apply List.eq_nil_of_length_eq_zero
      rw [slice_length]
      have := Nat.mul_le_mul_right size hle
      rw [Nat.div_mul_cancel hdvd] at this
      omega
    unfold segmentAt at h1
    rw [this] at h1
    revert h1
    unfold FileRecordSegment.init
    rw [if_pos (by decide)]
    exact fun h => by cases h
  have hc := List.all_eq_true.1 h k (List.mem_range.2 hk)
  rw [h1] at hc
  dsimp only at hc
  rw [← h4] at hc
  simp only [Bool.or_eq_true, Bool.and_eq_true, bne_iff_ne, ne_eq, h2, not_true, false_or, decide_eq_true_eq, List.all_eq_true, Bool.not_eq_true'] at hc
  obtain ⟨⟨⟨c1, c2⟩, c3⟩, c4⟩ := hc
  refine ⟨⟨c1, ?_, c3⟩, ?_⟩
  · rintro a ha n v rfl
    have := c2 _ ha
    cases this
  · intro hd
    rcases c4 with c4 | c4
    · rw [c4] at hd; cases hd
    · exact c4

/-- The hypotheses of `C97_complete_partial` are met. -/
example : UsableTable (sampleTable 3) 1024 ∧
    (usnRecords twoRecords).map (fun g => (g.items.map (fun x => decide (Spec.UsnTable.nameOffset x.2.raw + Spec.UsnTable.nameLength x.2.raw ≤ x.2.raw.length)), g.err)) =
      some ([true, true], none) :=
  ⟨usable_of_check (by decide) (by decide +kernel) (by decide +kernel), by decide +kernel⟩

end Verif.Props
