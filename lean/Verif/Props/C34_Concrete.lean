/-
Concrete log files for the properties C32, C34 and C37, and the limit of C34.
-/
import Verif.Props.C34
namespace Verif.Props
open Verif.LogFile Verif.Spec.Log

/-- The configuration of a new parser (dfir_ntfs/LogFile.py:717-718). -/
def newConfig : Config := ⟨4096, none, 1⟩

/-- There is a log file of three pages for which the hypotheses of C32, C34 and C37 hold; its three
records are collected although only the first one is named by a page. -/
theorem sample_log : ∃ p, Parser.init SampleLog.log = .ok p ∧ p.sequenceNumberBits = 40 ∧
    SampleLog.log.length ≤ 8 * 2 ^ (64 - p.sequenceNumberBits) ∧ p.recordHeaderLength % 8 = 0 ∧
    p.collectLsns SampleLog.log id 100 newConfig = some (.ok (⟨4096, some true, 1⟩, [16778248, 16778262, 16778272])) ∧
    p.sortLsns SampleLog.log [16778248, 16778262, 16778272] = .ok [(0, [16778248, 16778262, 16778272])] := by
  have h : (match Parser.init SampleLog.log with
      | .ok p => decide (p.sequenceNumberBits = 40 ∧ SampleLog.log.length ≤ 8 * 2 ^ (64 - p.sequenceNumberBits) ∧ p.recordHeaderLength % 8 = 0 ∧
        p.collectLsns SampleLog.log id 100 newConfig = some (.ok (⟨4096, some true, 1⟩, [16778248, 16778262, 16778272])) ∧
        p.sortLsns SampleLog.log [16778248, 16778262, 16778272] = .ok [(0, [16778248, 16778262, 16778272])])
      | .error _ => false) = true := by decide +kernel
  split at h
  · rename_i p hp
    exact ⟨p, hp, of_decide_eq_true h⟩
  · cases h

/-- C34 needs the condition that the position bits of an LSN can address the file: with 54 bits for
sequence numbers, an LSN is reported although the record at the position it encodes carries another
LSN. -/
theorem C34_too_large : ∃ p, Parser.init SampleLog.tooLarge = .ok p ∧
    p.collectLsns SampleLog.tooLarge id 100 newConfig = some (.ok (newConfig, [1544, 1545])) ∧ ¬ InLog p SampleLog.tooLarge 1545 := by
  have h : (match Parser.init SampleLog.tooLarge with
      | .ok p => decide (p.collectLsns SampleLog.tooLarge id 100 newConfig = some (.ok (newConfig, [1544, 1545])) ∧
        (match p.recordOf SampleLog.tooLarge 1545 with | .ok (some r) => thisLsn r != 1545 | _ => false) = true ∧ SampleLog.tooLarge.length < 2 ^ 63)
      | .error _ => false) = true := by decide +kernel
  split at h
  · rename_i p hp
    obtain ⟨h1, h2, h3⟩ := of_decide_eq_true h
    refine ⟨p, hp, h1, fun hin => ?_⟩
    obtain ⟨r, hr, ht⟩ := (valid_iff hp SampleLog.tooLarge h3 1545).mpr hin
    rw [hr] at h2
    dsimp only at h2
    rw [ht] at h2
    exact absurd h2 (by decide)
  · cases h

end Verif.Props
