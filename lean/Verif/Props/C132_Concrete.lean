/-
Concrete log files for the property C132.
-/
import Verif.Props.C132
import Verif.Proof.SampleLog
-- Not used here: it is imported so that the two modules, which both need much memory, are not built at the same time.
import Verif.Props.C109_Concrete
namespace Verif.Props.LogAgain
open Verif Verif.LogFile

/-- A log record without data. -/
def emptyRecord : Bytes := zeros 32

/-- A log file with the version 1.1: a copy of the tail page with a restart area and a log record, and the page itself, in which the restart
area has not been written. -/
def unwrittenLog : Bytes := [SampleLog.restart 40 16779286, zeros 4096,
  SampleLog.page ([SampleLog.header 16384 16779286, SampleLog.record 16779272 0 0 64 0 2 (SampleLog.area 0),
    SampleLog.record 16779286 16779272 0 32 0 1 emptyRecord].flatten), zeros 4096,
  SampleLog.page ([SampleLog.header 16779286 16779286, zeros 112, SampleLog.record 16779286 0 0 32 0 1 emptyRecord].flatten)].flatten

/-- The LSNs of what an iteration gives, and the exception at its end. -/
def lsnsGiven (r : Option (Gen (Item × Nat) × Log)) : Option (List Nat × Option Exc) :=
  r.map fun x => (x.1.items.map fun i => (match i.1.decoded with | .restartArea _ lsn => lsn | .logRecord _ lsn _ => lsn), x.1.err)

/-- The parser after an iteration. -/
def after (p : Parser) (o : Log) (recover : Bool) (taken : Option Nat) : Log := ((p.iterate o id 20 recover taken).map (·.2)).getD o

/-- C132 is false of the code when the choices differ: without recovery, a new parser gives nothing from this file but raises
`AttributeError`; a parser that has been through an iteration with recovery, to its end, gives a record. -/
theorem C132_mixed : ∃ p, Parser.init unwrittenLog = .ok p ∧
    lsnsGiven (p.iterate (Log.fresh unwrittenLog) id 20 false none) = some ([], some .AttributeError) ∧
    lsnsGiven (p.iterate (Log.fresh unwrittenLog) id 20 true none) = some ([16779272, 16779286], none) ∧
    lsnsGiven (p.iterate (after p (Log.fresh unwrittenLog) true none) id 20 false none) = some ([16779286], none) := by
  have h : (match Parser.init unwrittenLog with
      | .ok p => decide (lsnsGiven (p.iterate (Log.fresh unwrittenLog) id 20 false none) = some ([], some .AttributeError) ∧
          lsnsGiven (p.iterate (Log.fresh unwrittenLog) id 20 true none) = some ([16779272, 16779286], none) ∧
          lsnsGiven (p.iterate (after p (Log.fresh unwrittenLog) true none) id 20 false none) = some ([16779286], none))
      | .error _ => false) = true := by decide +kernel
  split at h
  · rename_i p hp
    exact ⟨p, hp, of_decide_eq_true h⟩
  · cases h

/-- C132 is false of the code after an iteration with recovery that has been left: after its first item the parser still has the recovered
file, and an iteration without recovery reads that: it gives a restart area which is not in the original file. -/
theorem C132_left : ∃ p, Parser.init unwrittenLog = .ok p ∧
    lsnsGiven (p.iterate (Log.fresh unwrittenLog) id 20 true (some 1)) = some ([16779272], none) ∧
    lsnsGiven (p.iterate (after p (Log.fresh unwrittenLog) true (some 1)) id 20 false none) = some ([16779272, 16779286], none) := by
  have h : (match Parser.init unwrittenLog with
      | .ok p => decide (lsnsGiven (p.iterate (Log.fresh unwrittenLog) id 20 true (some 1)) = some ([16779272], none) ∧
          lsnsGiven (p.iterate (after p (Log.fresh unwrittenLog) true (some 1)) id 20 false none) = some ([16779272, 16779286], none))
      | .error _ => false) = true := by decide +kernel
  split at h
  · rename_i p hp
    exact ⟨p, hp, of_decide_eq_true h⟩
  · cases h

/-- The hypotheses of C132 are met: a parser that has been through an iteration with recovery gives both records again. -/
example : ∃ p o, Parser.init unwrittenLog = .ok p ∧ Parsed p unwrittenLog id 20 true o ∧ o ≠ Log.fresh unwrittenLog ∧
    lsnsGiven (p.iterate o id 20 true none) = some ([16779272, 16779286], none) := by
  obtain ⟨p, hp, -, h2, h3⟩ := C132_mixed
  cases hi : p.iterate (Log.fresh unwrittenLog) id 20 true none with
  | none => rw [hi] at h2; cases h2
  | some x =>
    obtain ⟨g, o⟩ := x
    have he : g.err = none := by
      rw [hi] at h2
      exact (Prod.mk.inj (Option.some.inj h2)).2
    have hpar : Parsed p unwrittenLog id 20 true o := .next _ _ none g .fresh hi fun _ => .inr ⟨rfl, he⟩
    refine ⟨p, o, hp, hpar, fun ho => ?_, ?_⟩
    · obtain ⟨p', hp', h1', -, h3'⟩ := C132_mixed
      rw [hp] at hp'
      cases hp'
      unfold after at h3'
      rw [hi] at h3'
      rw [show ((some (g, o)).map (·.2)).getD (Log.fresh unwrittenLog) = o from rfl, ho, h1'] at h3'
      cases h3'
    · have := C132_again_partial p unwrittenLog id 20 true o hpar none
      rw [hi] at this
      cases hj : p.iterate o id 20 true none with
      | none => rw [hj] at this; cases this
      | some y =>
        rw [hj] at this
        have hy : y.1 = g := Option.some.inj this
        rw [hi] at h2
        unfold lsnsGiven at h2 ⊢
        rw [Option.map_some] at h2 ⊢
        rw [hy]
        exact h2

/-- The hypotheses of `C132_left_items` are met: the complete iteration with recovery gives two items, and one left after the first of them
gives that one. -/
example : ∃ p r o', Parser.init unwrittenLog = .ok p ∧ p.iterate (Log.fresh unwrittenLog) id 20 true none = some (r, o') ∧
    r.items.length = 2 ∧ ∃ left, p.iterate (Log.fresh unwrittenLog) id 20 true (some 1) = some (⟨r.items.take 1, none⟩, left) := by
  obtain ⟨p, hp, -, h2, -⟩ := C132_mixed
  cases hi : p.iterate (Log.fresh unwrittenLog) id 20 true none with
  | none => rw [hi] at h2; cases h2
  | some x =>
    obtain ⟨r, o'⟩ := x
    rw [hi] at h2
    have hl : r.items.length = 2 := by
      have := congrArg List.length (Prod.mk.inj (Option.some.inj h2)).1
      rwa [List.length_map] at this
    exact ⟨p, r, o', hp, hi, hl, (C132_left_items p _ o' id 20 true r hi 1).1 (by rw [hl]; decide)⟩

end Verif.Props.LogAgain
