/-
Property C75: enumerating the file records of a master file table (dfir_ntfs/MFT.py:1317-1364).
-/
import Verif.Proof.ParserPaths
import Verif.Proof.SampleMFT
namespace Verif.Props
open Verif.MFT Verif.Spec.Parser

/-- The file record with the base segment `k`, if that is a valid base segment. -/
def recordAt (file : Bytes) (size k : Nat) : Option FileRecord :=
  match segmentAt file size k with
  | none => none
  | some f => if baseOf f = 0 then some ⟨f, (childrenOf file size (ownReference f k)).filterMap (segmentAt file size)⟩ else none

theorem fileRecordsLoop_eq {p : Parser} (hp : p.Loaded) (only : Bool) (i : Nat) (hi : i ≤ p.file.length / p.size) :
    fileRecordsLoop p only i = ⟨((List.range' i (p.file.length / p.size - i)).filterMap (recordAt p.file p.size)).filter
      (fun r => !only || (flagsOf r.base).testBit 0), none⟩ := by
  have hs : 0 < p.size := by have := hp.size; omega
  unfold fileRecordsLoop
  have stop : p.file.length / p.size ≤ i → (Gen.done : Gen FileRecord) =
      ⟨((List.range' i (p.file.length / p.size - i)).filterMap (recordAt p.file p.size)).filter
      (fun r => !only || (flagsOf r.base).testBit 0), none⟩ := by
    intro h
    rw [show p.file.length / p.size - i = 0 by omega]; rfl
  by_cases hlt : i * p.size < p.file.length ∧ 0 < p.size
  · rw [if_pos hlt]
    dsimp only
    have hl : (slice p.file (i * p.size) (i * p.size + p.size)).length = min p.size (p.file.length - i * p.size) := by
      rw [slice_length]; omega
    by_cases hb : (slice p.file (i * p.size) (i * p.size + p.size)).length ≠ p.size
    · rw [if_pos hb]
      apply stop
      have : p.file.length / p.size < i + 1 := by
        apply (Nat.div_lt_iff_lt_mul hs).2
        rw [Nat.add_mul]; omega
      omega
    · rw [if_neg hb]
      have hi' : i + 1 ≤ p.file.length / p.size := by
        apply (Nat.le_div_iff_mul_le hs).2
        rw [Nat.add_mul]; omega
      have hdec : p.file.length - (i + 1) * p.size < p.file.length - i * p.size := by rw [Nat.add_mul]; omega
      have ih := fileRecordsLoop_eq hp only (i + 1) hi'
      rw [show p.file.length / p.size - i = (p.file.length / p.size - (i + 1)) + 1 by omega, List.range'_succ, List.filterMap_cons]
      cases hinit : FileRecordSegment.init (slice p.file (i * p.size) (i * p.size + p.size)) true (some i) with
      | error e =>
        have hseg : segmentAt p.file p.size i = none := by unfold segmentAt; rw [hinit]; rfl
        have hr : recordAt p.file p.size i = none := by unfold recordAt; rw [hseg]
        dsimp only
        rw [if_pos (isFrsExc_init hinit), hr, ih]
      | ok f =>
        have hseg : segmentAt p.file p.size i = some f := by unfold segmentAt; rw [hinit]; rfl
        dsimp only
        by_cases hb0 : baseOf f = 0
        · have hr : recordAt p.file p.size i = some ⟨f, (childrenOf p.file p.size (ownReference f i)).filterMap (segmentAt p.file p.size)⟩ := by
            unfold recordAt; rw [hseg]; dsimp only; rw [if_pos hb0]
          rw [hr, ih]
          dsimp only
          rw [if_pos ((isBase_iff f).2 hb0), assemble_eq hp (segmentAt_suggested hseg)]
          by_cases ho : only = true ∧ ¬ f.isInUse = true
          · rw [if_pos ho, List.filter_cons_of_neg]
            rw [inUse_iff] at ho
            simpa using ho
          · rw [if_neg ho, List.filter_cons_of_pos]
            · rfl
            · rw [inUse_iff] at ho
              cases only <;> simp_all
        · have hr : recordAt p.file p.size i = none := by unfold recordAt; rw [hseg]; dsimp only; rw [if_neg hb0]
          rw [hr, if_neg (fun h => hb0 ((isBase_iff f).1 h)), ih]
          split <;> rfl
  · rw [if_neg hlt]
    apply stop
    have : p.file.length / p.size < i + 1 := by
      apply (Nat.div_lt_iff_lt_mul hs).2
      rw [Nat.add_mul]; omega
    omega
termination_by p.file.length - i * p.size

/-- C75: enumerating the file records yields, in the order of their numbers, the file records of all the
complete valid base segments (only those in use, when asked to), each exactly once, and never raises an
exception: damaged segments are skipped. -/
theorem C75_file_records (file : Bytes) (p : Parser) (hp : Parser.init file true = .ok p) (only : Bool) :
    p.fileRecords only = ⟨((List.range (file.length / p.size)).filterMap (recordAt file p.size)).filter
      (fun r => !only || (flagsOf r.base).testBit 0), none⟩ := by
  obtain ⟨rfl, hl⟩ := Parser.init_loaded hp
  unfold Parser.fileRecords
  rw [fileRecordsLoop_eq hl only 0 (Nat.zero_le _), Nat.sub_zero, List.range_eq_range']

/-- C75: a record that the enumeration yields is one that the lookup by number returns, and conversely
every base segment that the lookup by number finds among the complete segments is in the enumeration. -/
theorem C75_agrees_with_lookup (file : Bytes) (p : Parser) (hp : Parser.init file true = .ok p) (r : FileRecord) :
    r ∈ (p.fileRecords false).items ↔
      ∃ k, k < file.length / p.size ∧ segmentAt file p.size k = some r.base ∧ p.getRecord k none = .ok r := by
  rw [C75_file_records file p hp]
  obtain ⟨rfl, hl⟩ := Parser.init_loaded hp
  rw [(List.filter_eq_self (p := fun r : FileRecord => !false || (flagsOf r.base).testBit 0)).2 (fun _ _ => rfl)]
  simp only [List.mem_filterMap, List.mem_range]
  constructor
  · rintro ⟨k, hk, hr⟩
    unfold recordAt at hr
    cases hseg : segmentAt p.file p.size k with
    | none => rw [hseg] at hr; cases hr
    | some f =>
      rw [hseg] at hr
      dsimp only at hr
      by_cases hb : baseOf f = 0
      · rw [if_pos hb] at hr
        cases hr
        exact ⟨k, hk, hseg, (getRecord_iff hl).2 (.inl ⟨_, ⟨hseg, hb, rfl, rfl⟩, .inl rfl⟩)⟩
      · rw [if_neg hb] at hr; cases hr
  · rintro ⟨k, hk, hseg, hg⟩
    refine ⟨k, hk, ?_⟩
    unfold recordAt
    rw [hseg]
    dsimp only
    rcases (getRecord_iff hl).1 hg with ⟨s, ⟨-, h2, -, h4⟩, -⟩ | ⟨-, f, h1, h2, -, -, h4, -⟩
    · rw [if_pos h2, ← h4]
    · rw [hseg] at h1; cases h1; exact absurd h4 h2

/-- A case with damaged segments, child segments and deleted records. -/
example : (let p : Parser := ⟨[plainSegment 0, zeros 1024, mkSegment 2 1 1 0 0 [], mkSegment 3 1 1 2 1 [], mkSegment 4 2 0 0 0 []].flatten,
      1024, [(0x1000000000002, [3])]⟩
    ((p.fileRecords true).items.map (fun r => (u32 r.base.data 44, r.children.length)),
     (p.fileRecords false).items.map (fun r => (u32 r.base.data 44, r.children.length)))) =
    ([(0, 0), (2, 1)], [(0, 0), (2, 1), (4, 0)]) := by decide +kernel

end Verif.Props
