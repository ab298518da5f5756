/-
C108: the report on a log file.
-/
import Verif.Proof.LogBlocks
import Verif.Props.C77_C78
import Verif.Props.C99_Concrete
namespace Verif.Props
open Verif.MFT Verif.Scripts Verif.Spec.LogReport Verif.Proof.LogReport

theorem deletions_eq (l : List Str) : (if l.length > 0 then
      Gen.cons (Str.ofString "Files and directories with these MFT numbers were deleted (in this order):\n" ++
        pyJoin (Str.ofString " ") l ++ Str.ofString "\n\n---\n\n") .done else .done) = ⟨deletions l, none⟩ := by
  cases l with
  | nil => rfl
  | cons s rest =>
    rw [if_pos (by simp), spaced_eq]
    rfl

/-- What the loop writes, from the items that are left and the deletions so far. -/
theorem reportLoop_spec (p : MFT.Parser) (config : LogFile.Config) (err : Option Exc) : ∀ (items : List LogFile.Item) (deleted : List Str),
    ∃ shown : List (List Str × Option Str), (∀ (k : Nat) i s, items[k]? = some i → shown[k]? = some s → IsItem p config i s.1 s.2) ∧
      ((shown.length = items.length ∧ (reportLoop p config err items deleted).err = err ∧
          (reportLoop p config err items deleted).items = shown.map (fun s => sectionText s.1) ++
            (if err = none then deletions (deleted ++ shown.filterMap (·.2)) else [])) ∨
       (∃ i, items[shown.length]? = some i ∧ (∀ l d, ¬ IsItem p config i l d) ∧ (reportLoop p config err items deleted).err ≠ none ∧
          (reportLoop p config err items deleted).items = shown.map (fun s => sectionText s.1)))
  | [], deleted => by
    refine ⟨[], fun k i s h => (by cases k <;> cases h), .inl ⟨rfl, ?_⟩⟩
    unfold reportLoop
    cases err with
    | some e => exact ⟨rfl, rfl⟩
    | none =>
      dsimp only
      rw [deletions_eq]
      simp
  | i :: rest, deleted => by
    unfold reportLoop
    cases h : itemLines p config i with
    | error e =>
      refine ⟨[], fun k i s _ h => (by cases k <;> cases h), .inr ⟨i, rfl, fun l d hi => ?_, (fun h => by cases h), rfl⟩⟩
      rw [← item_iff, h] at hi
      cases hi
    | ok s =>
      obtain ⟨l, d⟩ := s
      obtain ⟨shown, h1, h2⟩ := reportLoop_spec p config err rest (deleted ++ d.toList)
      refine ⟨(l, d) :: shown, ?_, ?_⟩
      · intro k i' s hi hs
        cases k with
        | zero => cases hi; cases hs; exact (item_iff _ _ _ _ _).1 h
        | succ k => exact h1 k i' s hi hs
      · dsimp only
        rcases h2 with ⟨h2, h3, h4⟩ | ⟨i', h2, h3, h4, h5⟩
        · refine .inl ⟨by rw [List.length_cons, List.length_cons, h2], h3, ?_⟩
          show section_ l :: _ = _
          rw [h4, section_eq]
          have : deleted ++ d.toList ++ shown.filterMap (·.2) = deleted ++ ((l, d) :: shown).filterMap (·.2) := by
            cases d <;> simp
          rw [this]
          rfl
        · refine .inr ⟨i', h2, h3, h4, ?_⟩
          show section_ l :: _ = _
          rw [h5, section_eq]
          rfl

/-- C108: the report has one section for every item that the parser of the log file yields, in their order, with the lines of the
specification; then the parser's exception follows, or the list of the deleted files, if there are any, in the order of their records.  The
only other outcome is that an item has no description at all: then the sections before it are all that is written. -/
theorem C108_report (log mft : Bytes) (order : List Nat → List Nat) (fuel : Nat) (l : LogFile.Parser) (p : MFT.Parser) (g : Gen LogFile.Item)
    (s : LogFile.State) (hl : LogFile.Parser.init log = .ok l) (hp : MFT.Parser.init mft = .ok p)
    (hg : l.parseRecords ⟨log, none⟩ order fuel initialConfig true = some (g, s)) :
    ∃ (config : LogFile.Config) (out : Gen Str) (shown : List (List Str × Option Str)), processLog log mft order fuel = some out ∧
      (config = configAfter l (l.repair ⟨log, none⟩).1.current order fuel) ∧
      (∀ (k : Nat) i s, g.items[k]? = some i → shown[k]? = some s → IsItem p config i s.1 s.2) ∧
      ((shown.length = g.items.length ∧ out.err = g.err ∧
          out.items = shown.map (fun s => sectionText s.1) ++ (if g.err = none then deletions (shown.filterMap (·.2)) else [])) ∨
       (∃ i, g.items[shown.length]? = some i ∧ (∀ l d, ¬ IsItem p config i l d) ∧ out.err ≠ none ∧
          out.items = shown.map (fun s => sectionText s.1))) := by
  obtain ⟨shown, h1, h2⟩ := reportLoop_spec p (configAfter l (l.repair ⟨log, none⟩).1.current order fuel) g.err g.items []
  refine ⟨_, _, shown, ?_, rfl, h1, h2⟩
  unfold processLog
  rw [hl]
  dsimp only
  rw [hp]
  dsimp only
  rw [hg]

/-- C108, as far as it holds: when the parser of the log file reaches its end and every item has a description, there is a section for every
item and then the list of the deleted files.  (Missing: an item without a description ends the report, and a deletion whose record is cut short
is not on the list; see below.) -/
theorem C108_complete_partial (log mft : Bytes) (order : List Nat → List Nat) (fuel : Nat) (l : LogFile.Parser) (p : MFT.Parser)
    (g : Gen LogFile.Item) (s : LogFile.State) (hl : LogFile.Parser.init log = .ok l) (hp : MFT.Parser.init mft = .ok p)
    (hg : l.parseRecords ⟨log, none⟩ order fuel initialConfig true = some (g, s)) (he : g.err = none)
    (hd : ∀ i ∈ g.items, ∃ lines d, IsItem p (configAfter l (l.repair ⟨log, none⟩).1.current order fuel) i lines d) :
    ∃ (out : Gen Str) (shown : List (List Str × Option Str)), processLog log mft order fuel = some out ∧ out.err = none ∧
      shown.length = g.items.length ∧ out.items = shown.map (fun s => sectionText s.1) ++ deletions (shown.filterMap (·.2)) ∧
      (∀ (k : Nat) i s, g.items[k]? = some i → shown[k]? = some s →
        IsItem p (configAfter l (l.repair ⟨log, none⟩).1.current order fuel) i s.1 s.2) := by
  obtain ⟨config, out, shown, h1, rfl, h2, h3⟩ := C108_report log mft order fuel l p g s hl hp hg
  rcases h3 with ⟨h3, h4, h5⟩ | ⟨i, h3, h4, -⟩
  · rw [he] at h4 h5
    rw [if_pos rfl] at h5
    exact ⟨out, shown, h1, h4, h3, h5, h2⟩
  · obtain ⟨lines, d, h⟩ := hd i (List.mem_of_getElem? h3)
    exact absurd h (h4 lines d)

/-- C108: nothing is written when the log file or the file table is rejected. -/
theorem C108_rejected (log mft : Bytes) (order : List Nat → List Nat) (fuel : Nat) (e : Exc)
    (h : LogFile.Parser.init log = .error e ∨ (∃ l, LogFile.Parser.init log = .ok l) ∧ MFT.Parser.init mft = .error e) :
    processLog log mft order fuel = some (.fail e) := by
  unfold processLog
  rcases h with h | ⟨⟨l, hl⟩, h⟩
  · rw [h]
  · rw [hl]; dsimp only; rw [h]

/-- C108: the description of an item is determined by the item. -/
theorem C108_determined (p : MFT.Parser) (config : LogFile.Config) (i : LogFile.Item) (l l' : List Str) (d d' : Option Str)
    (h : IsItem p config i l d) (h' : IsItem p config i l' d') : l = l' ∧ d = d' := by
  rw [← item_iff] at h h'
  rw [h] at h'
  cases h'
  exact ⟨rfl, rfl⟩

/-- C108: an item puts a number on the list of deleted files exactly if it is a log record that deallocates a file record segment and its
list of clusters is complete, and the number is that of the segment. -/
theorem C108_deleted (p : MFT.Parser) (config : LogFile.Config) (i : LogFile.Item) (l : List Str) (d : Option Str) (h : IsItem p config i l d)
    (text : Str) : d = some text ↔ ∃ b lsn transaction, i.decoded = .logRecord b lsn transaction ∧ ClustersInside b ∧
      Redoes b ["DeallocateFileRecordSegment"] ∧ ∃ n : Nat, n * targetSize b ≤ position b config.clusterSize ∧
        position b config.clusterSize < (n + 1) * targetSize b ∧ text = digits n := by
  unfold IsItem at h
  cases hi : i.decoded with
  | restartArea b lsn =>
    rw [hi] at h
    obtain ⟨-, rfl⟩ := h
    constructor
    · intro h; cases h
    · rintro ⟨_, _, _, h, -⟩; cases h
  | logRecord b lsn transaction =>
    rw [hi] at h
    cases h with
    | truncated _ _ _ _ _ _ _ _ hc =>
      constructor
      · intro h; cases h
      · rintro ⟨_, _, _, h, hc', -⟩; cases h; exact absurd hc' hc
    | complete redo undo target name offset _ _ _ _ _ _ _ hd ht _ hc _ _ _ _ _ _ hx =>
      have seg : Redoes b ["DeallocateFileRecordSegment"] → Does b onSegments := by
        rintro ⟨name, h1, h2⟩
        refine .inl ⟨name, ?_, h2⟩
        cases List.mem_singleton.1 h1
        decide
      constructor
      · rintro rfl
        rcases hx with ⟨h1, n, h2, h3, h4⟩ | ⟨-, h⟩
        · refine ⟨b, lsn, transaction, rfl, hc, h1, ?_⟩
          cases ht with
          | segment m path _ g1 g2 =>
            have hn : n = m := by
              have pos : (0 : Int) < targetSize b := by have := targetSize_pos b; omega
              have a1 : n < (m + 1 : Int) := Int.lt_of_mul_lt_mul_right (Int.lt_of_le_of_lt h2 g2) (by omega)
              have a2 : (m : Int) < n + 1 := Int.lt_of_mul_lt_mul_right (Int.lt_of_le_of_lt g1 h3) (by omega)
              omega
            subst hn
            refine ⟨m, g1, g2, ?_⟩
            have := Option.some.inj h4
            rw [this]
            unfold signed
            rw [if_neg (by omega)]
            rfl
          | opened _ _ _ h => exact absurd (seg h1) h
          | unknown h => exact absurd (seg h1) h
        · cases h
      · rintro ⟨b', _, _, e, -, h1, n, h2, h3, rfl⟩
        cases e
        rcases hx with ⟨-, m, g1, g2, g3⟩ | ⟨h, -⟩
        · have hn : m = n := by
            have a1 : m < (n + 1 : Int) := Int.lt_of_mul_lt_mul_right (Int.lt_of_le_of_lt g1 h3) (by omega)
            have a2 : (n : Int) < m + 1 := Int.lt_of_mul_lt_mul_right (Int.lt_of_le_of_lt h2 g2) (by omega)
            omega
          rw [g3, hn]
          unfold signed
          rw [if_neg (by omega)]
          rfl
        · exact absurd h1 h

/-- C108: a log record whose data begins inside of its header has no description, whatever the rest of it is: the report ends there. -/
theorem C108_bad_data (p : MFT.Parser) (config : LogFile.Config) (i : LogFile.Item) (b : Bytes) (lsn transaction : Nat)
    (hi : i.decoded = .logRecord b lsn transaction)
    (h : (field b 6 2 ≠ 0 ∧ 0 < field b 4 2 ∧ field b 4 2 < 32) ∨ (field b 10 2 ≠ 0 ∧ 0 < field b 8 2 ∧ field b 8 2 < 32)) :
    ∀ l d, ¬ IsItem p config i l d := by
  intro l d hx
  unfold IsItem at hx
  rw [hi] at hx
  have hd : ∃ redo undo, Data b redo undo := by
    cases hx with
    | truncated redo undo _ _ _ hd => exact ⟨redo, undo, hd⟩
    | complete redo undo _ _ _ _ _ _ _ _ _ _ hd => exact ⟨redo, undo, hd⟩
  obtain ⟨redo, undo, h1, h2⟩ := hd
  rcases h with h | h
  · rcases h1 with h1 | h1
    · exact h.1 h1.1
    · rcases h1.2.1 with h1 | h1 <;> omega
  · rcases h2 with h2 | h2
    · exact h.1 h2.1
    · rcases h2.2.1 with h2 | h2 <;> omega

/-- C108: and so has a log record about a file record segment at a negative position. -/
theorem C108_negative_target (p : MFT.Parser) (config : LogFile.Config) (i : LogFile.Item) (b : Bytes) (lsn transaction : Nat)
    (hi : i.decoded = .logRecord b lsn transaction) (h : Does b onSegments) (hn : position b config.clusterSize < 0) :
    ∀ l d, ¬ IsItem p config i l d := by
  intro l d hx
  unfold IsItem at hx
  rw [hi] at hx
  have hd : ∃ target name, IsTarget p config i b target name := by
    cases hx with
    | truncated _ _ t n _ _ ht => exact ⟨t, n, ht⟩
    | complete _ _ t n _ _ _ _ _ _ _ _ _ ht => exact ⟨t, n, ht⟩
  obtain ⟨t, n, ht⟩ := hd
  cases ht with
  | segment n _ _ h1 =>
    have : (0 : Int) ≤ n * targetSize b := Int.mul_nonneg (by omega) (by omega)
    omega
  | opened _ _ _ h' => exact h' h
  | unknown h' => exact h' h

/-! ### Concrete cases -/

/-- A log file with these records in its only page. -/
def reportedLog (records : List Bytes) : Bytes := [SampleLog.restart 40 16779272, zeros 4096, zeros 4096, zeros 4096,
  SampleLog.page (SampleLog.header 16779272 16779272 ++ records.flatten)].flatten

/-- A log record that deallocates the file record segment `n`, and claims to have this many clusters. -/
def deletionRecord (n clusters : Nat) : Bytes := [natLE 2 3, zeros 12, natLE 2 clusters, zeros 4, natLE 2 (2 * n), zeros 10].flatten

/-- A log record with redo data inside of its header. -/
def badRecord : Bytes := [natLE 2 0, zeros 2, natLE 2 8, natLE 2 4, zeros 24].flatten

/-- A restart area, and the deletions of the segments 1 and 2; the latter has no room for its cluster. -/
def deletionsLog : Bytes := reportedLog [SampleLog.record 16779272 0 0 64 0 2 (SampleLog.area 0),
  SampleLog.record 16779286 0 0 32 0 1 (deletionRecord 1 0), SampleLog.record 16779296 0 0 32 0 1 (deletionRecord 2 1)]

/-- A restart area, the deletion of the segment 1, and a record with data inside of its header. -/
def badLog : Bytes := reportedLog [SampleLog.record 16779272 0 0 64 0 2 (SampleLog.area 0),
  SampleLog.record 16779286 0 0 32 0 1 (deletionRecord 1 0), SampleLog.record 16779296 0 0 32 0 1 badRecord]

/-- C108 does not hold as stated: a deletion whose record is cut short is not on the list of deleted files (the number of its file is known,
and it is in its section). -/
theorem C108_deleted_left_out : (processLog deletionsLog (indexMft []) id 20).map (fun g => (g.err, g.items.drop 2)) = some (none,
    [Str.ofString ("LSN: 16779296\nTransaction ID: 0\n" ++
        "Log record, redo operation: DeallocateFileRecordSegment, undo operation: Noop\nTarget (file number): 2\nOffset in target: 0\n" ++
        "Warning: truncated page\n\n---\n\n"),
     Str.ofString "Files and directories with these MFT numbers were deleted (in this order):\n1\n\n---\n\n"]) := by decide +kernel

/-- C108 does not hold as stated: one record with data inside of its header ends the report; the list of deleted files is not written, though
a file was deleted. -/
theorem C108_one_record_stops : (processLog badLog (indexMft []) id 20).map (fun g => (g.err, g.items.drop 1)) = some (some .ClientException,
    [Str.ofString ("LSN: 16779286\nTransaction ID: 0\n" ++
      "Log record, redo operation: DeallocateFileRecordSegment, undo operation: Noop\nTarget (file number): 1\n" ++
      "Target path (from $MFT, likely wrong if the file was deleted later): /d\nOffset in target: 0\n" ++
      "Redo data:\n-\n\nUndo data:\n-\n\n\n---\n\n")]) := by decide +kernel

/-- The hypotheses of `C108_report` are met whenever a report is complete. -/
theorem processLog_complete {log mft : Bytes} {order : List Nat → List Nat} {fuel : Nat} {out : Gen Str}
    (h : processLog log mft order fuel = some out) (he : out.err = none) : ∃ l p g s, LogFile.Parser.init log = .ok l ∧
      MFT.Parser.init mft = .ok p ∧ l.parseRecords ⟨log, none⟩ order fuel initialConfig true = some (g, s) := by
  unfold processLog at h
  split at h
  · cases h; cases he
  · rename_i l hl
    split at h
    · cases h; cases he
    · rename_i p hp
      split at h
      · cases h
      · rename_i g s hg
        exact ⟨l, p, g, s, hl, hp, hg⟩

example : ∃ l p g s, LogFile.Parser.init deletionsLog = .ok l ∧ MFT.Parser.init (indexMft []) = .ok p ∧
    l.parseRecords ⟨deletionsLog, none⟩ id 20 initialConfig true = some (g, s) := by
  have h := C108_deleted_left_out
  cases hp : processLog deletionsLog (indexMft []) id 20 with
  | none => rw [hp] at h; cases h
  | some out =>
    rw [hp] at h
    exact processLog_complete hp (congrArg Prod.fst (Option.some.inj h))

/-- The hypotheses of `C108_bad_data` and `C108_negative_target` are met. -/
example : field badRecord 6 2 ≠ 0 ∧ 0 < field badRecord 4 2 ∧ field badRecord 4 2 < 32 := by decide
example : Does (natLE 2 3 ++ zeros 22 ++ List.replicate 8 0xFF) onSegments ∧
    position (natLE 2 3 ++ zeros 22 ++ List.replicate 8 0xFF) 4096 < 0 :=
  ⟨.inl ⟨"DeallocateFileRecordSegment", by decide, by decide⟩, by decide⟩

end Verif.Props
