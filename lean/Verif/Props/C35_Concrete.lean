/-
Concrete log files for the properties C35, C36 and C76.
-/
import Verif.Props.C76
import Verif.Proof.SampleLog
namespace Verif.Props
open Verif.LogFile Verif.Spec.Log

/-- A copy of the tail page: the file offset and the last end LSN. -/
def tailPage (offset endLsn : Nat) : Bytes := SampleLog.page (SampleLog.header offset endLsn)

/-- A log file with the version 1.1 and two copies of the tail page, for the offset 16384; the second one
is later. -/
def tailLog : Bytes := [SampleLog.restart 40 1000, zeros 4096, tailPage 16384 1000, tailPage 16384 2000, zeros 4096].flatten

/-- The hypotheses of C36 are met. -/
theorem C36_example : ∃ p b2 b3, Parser.init tailLog = .ok p ∧ p.logVersion = (1, 1) ∧ LogPage p tailLog 2 b2 ∧ LogPage p tailLog 3 b3 ∧
    lastEndLsnOf b2 = 1000 ∧ lastEndLsnOf b3 = 2000 ∧ copyOffsetOf b3 = 16384 := by
  have h : (match Parser.init tailLog with
      | .ok p =>
        (match p.getPage tailLog 2, p.getPage tailLog 3 with
         | .ok (some a), .ok (some b) => decide (p.logVersion = (1, 1) ∧ lastEndLsnOf a.buf = 1000 ∧ lastEndLsnOf b.buf = 2000 ∧ copyOffsetOf b.buf = 16384)
         | _, _ => false)
      | .error _ => false) = true := by decide +kernel
  split at h
  · rename_i p hp
    split at h
    · rename_i a b ha hb
      obtain ⟨h1, h2, h3, h4⟩ := of_decide_eq_true h
      have hs := (init_facts hp).2.2.1
      exact ⟨p, a.buf, b.buf, hp, h1, (getPage_iff hs tailLog (by omega) _).mp ⟨a, ha, rfl⟩, (getPage_iff hs tailLog (by omega) _).mp ⟨b, hb, rfl⟩, h2, h3, h4⟩
    · cases h
  · cases h

/-- The tail page is written over the fifth page. -/
theorem tailLog_applied : ∃ p, Parser.init tailLog = .ok p ∧ p.logVersion = (1, 1) ∧ ∀ s : State, s.current = tailLog →
    p.applyTailPage s = s.write 16384 (slice tailLog 12288 16384) := by
  obtain ⟨p, b2, b3, hp, hv, h2, h3, e2, e3, ho⟩ := C36_example
  refine ⟨p, hp, hv, fun s hs => ?_⟩
  have huniq : ∀ {n a b}, LogPage p tailLog n a → LogPage p tailLog n b → a = b := by
    rintro n a b ⟨-, -, -, e, h, -⟩ ⟨-, -, -, e', h', -⟩
    rw [h] at h'; cases h'; rfl
  have := C36_latest_copy tailLog p hp hv s 3 b3 (.inr rfl) (by rw [hs]; exact h3) (by
    rw [hs]
    rintro m other (rfl | rfl) hm
    · rw [huniq hm h2]; omega
    · rw [huniq hm h3]; omega)
  rw [this, ho, hs]

/-- A history of calls that applies the page and discards it; the file read in between differs. -/
theorem C35_example : ∃ p, Parser.init tailLog = .ok p ∧ ∃ t, History p ⟨tailLog, none⟩ t ∧ t.current[16384]? = some 0x52 ∧
    tailLog[16384]? = some 0 := by
  obtain ⟨p, hp, hv, h⟩ := tailLog_applied
  have hw := h ⟨tailLog, some tailLog⟩ rfl
  have hlen : (slice tailLog 12288 16384).length = 4096 := by decide +kernel
  have hw2 : (State.mk tailLog (some tailLog)).write 16384 (slice tailLog 12288 16384) =
      .ok ⟨tailLog, some (writeAt tailLog 16384 (slice tailLog 12288 16384))⟩ := by
    unfold State.write
    rw [if_neg (by decide), if_neg (by rw [hlen]; decide)]
    rfl
  rw [hw2] at hw
  refine ⟨p, hp, ⟨tailLog, some (writeAt tailLog 16384 (slice tailLog 12288 16384))⟩, ?_, ?_, by decide +kernel⟩
  · refine .call _ ⟨tailLog, some tailLog⟩ _ .applyTail (.call _ ⟨tailLog, none⟩ _ .prepare (.start _) rfl ?_) ?_ ?_
    · rintro (h | h) <;> cases h
    · unfold Call.run
      rw [hw]
    · exact fun _ h => nomatch h
  · change (writeAt tailLog 16384 (slice tailLog 12288 16384))[16384]? = _
    rw [writeAt_getElem?, if_neg (by omega), if_pos (by rw [hlen]; omega), slice_getElem?, if_pos (by omega)]
    decide +kernel

/-- The precondition in C35 is needed: without `prepare_for_writes`, the tail page is written to the
original file. -/
theorem C35_unprepared_writes_original : ∃ p, Parser.init tailLog = .ok p ∧ ∃ s', p.applyTailPage ⟨tailLog, none⟩ = .ok s' ∧
    s'.original ≠ tailLog := by
  obtain ⟨p, hp, hv, h⟩ := tailLog_applied
  have hw := h ⟨tailLog, none⟩ rfl
  have hlen : (slice tailLog 12288 16384).length = 4096 := by decide +kernel
  have hw2 : (State.mk tailLog none).write 16384 (slice tailLog 12288 16384) =
      .ok ⟨writeAt tailLog 16384 (slice tailLog 12288 16384), none⟩ := by
    unfold State.write
    rw [if_neg (by decide), if_neg (by rw [hlen]; decide)]
    rfl
  rw [hw2] at hw
  refine ⟨p, hp, _, hw, fun he => ?_⟩
  have : (writeAt tailLog 16384 (slice tailLog 12288 16384))[16384]? = tailLog[16384]? := congrArg (·[16384]?) he
  rw [writeAt_getElem?, if_neg (by omega), if_pos (by rw [hlen]; omega), slice_getElem?, if_pos (by omega)] at this
  exact absurd this (by decide +kernel)

/-- A fast page: the last LSN and the file offset. -/
def fastPage (lsn offset : Nat) : Bytes :=
  SampleLog.page ([[0x52, 0x43, 0x52, 0x44], natLE 2 40, natLE 2 9, natLE 8 lsn, zeros 16, natLE 8 lsn, [1, 0], zeros 16, zeros 2, natLE 4 offset].flatten)

/-- A log file with the version 2.0 and two fast pages for the same place, the first one later. -/
def fastLog : Bytes := [((SampleLog.restart 40 1000).set 26 0).set 28 2, zeros 4096, fastPage 2000 8192, fastPage 1000 8192].flatten

/-- The hypotheses of C76 are met. -/
theorem C76_example : ∃ p b2 b3, Parser.init fastLog = .ok p ∧ p.logVersion ≠ (1, 1) ∧
    FastPage p fastLog 2 b2 ∧ FastPage p fastLog 3 b3 ∧ Covers b2 8192 ∧ Covers b3 8192 ∧ lastLsnOf b2 = 2000 ∧ lastLsnOf b3 = 1000 ∧
    ∀ n buf, FastPage p fastLog n buf → arrayEnd (slice fastLog (n * 4096) ((n + 1) * 4096)) ≤ 60 := by
  have h : (match Parser.init fastLog with
      | .ok p =>
        (match p.getPage fastLog 2, p.getPage fastLog 3 with
         | .ok (some a), .ok (some b) => decide (p.logVersion ≠ (1, 1) ∧ lastLsnOf a.buf = 2000 ∧ lastLsnOf b.buf = 1000 ∧ fastOffsetOf a.buf = 8192 ∧
             fastOffsetOf b.buf = 8192 ∧ p.fileSize / 4096 ≤ 34 ∧ arrayEnd (slice fastLog 8192 12288) ≤ 60 ∧ arrayEnd (slice fastLog 12288 16384) ≤ 60 ∧ fastLog.length = 16384)
         | _, _ => false)
      | .error _ => false) = true := by decide +kernel
  split at h
  · rename_i p hp
    split at h
    · rename_i a b ha hb
      obtain ⟨h1, h2, h3, h4, h5, h6, h7, h8, h9⟩ := of_decide_eq_true h
      have hs := (init_facts hp).2.2.1
      have l2 := (getPage_iff hs fastLog (by omega) _).mp ⟨a, ha, rfl⟩
      have l3 := (getPage_iff hs fastLog (by omega) _).mp ⟨b, hb, rfl⟩
      refine ⟨p, a.buf, b.buf, hp, h1, ⟨by omega, by omega, l2, by omega, fun m o a1 a2 _ => by omega⟩,
        ⟨by omega, by omega, l3, by omega, fun m o a1 a2 _ => by omega⟩, ⟨by omega, by omega⟩, ⟨by omega, by omega⟩, h2, h3, fun n buf hf => ?_⟩
      have a1 := hf.1
      have a2 := hf.2.2.1.1
      rw [h9] at a2
      have : n = 2 ∨ n = 3 := by omega
      rcases this with rfl | rfl
      · exact h7
      · exact h8
    · cases h
  · cases h

end Verif.Props
