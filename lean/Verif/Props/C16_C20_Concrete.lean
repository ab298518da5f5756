/-
Concrete master file tables that meet the hypotheses of C16-C20, and the table that refutes a part of
C20.
-/
import Verif.Props.C16_C20
import Verif.Proof.SampleMFT
namespace Verif.Props
open Verif.MFT Verif.Spec.Parser

/-! ### Concrete tables -/

theorem parser_eq {file : Bytes} {size : Nat} {cache : List (Nat × List Nat)}
    (h : (match Parser.init file true with
      | .ok p => decide (p.size = size ∧ p.cache = cache)
      | .error _ => false) = true) : Parser.init file true = .ok ⟨file, size, cache⟩ := by
  cases hi : Parser.init file true with
  | error e => rw [hi] at h; cases h
  | ok p =>
    rw [hi] at h
    obtain ⟨h1, -⟩ := Parser.init_loaded hi
    simp only [decide_eq_true_eq] at h
    rw [← h.1, ← h.2, ← h1]

theorem sampleTable_parser : Parser.init (sampleTable 3) true = .ok ⟨sampleTable 3, 1024, [(0x2000000000006, [8])]⟩ :=
  parser_eq (by decide +kernel)
theorem cyclicTable_parser : Parser.init cyclicTable true = .ok ⟨cyclicTable, 1024, []⟩ := parser_eq (by decide +kernel)
theorem deletedTable_parser : Parser.init (sampleTable 2) true = .ok ⟨sampleTable 2, 1024, [(0x2000000000006, [8])]⟩ :=
  parser_eq (by decide +kernel)

/-- The hypotheses of C16, C17 and C19 are met: the record 6 has a child segment, can be looked up by
either number, and has the paths `/g` and `/d/f`. -/
example : (match (Parser.mk (sampleTable 3) 1024 [(0x2000000000006, [8])]).getRecord 8 (some 1) with
    | .ok r => some (r.children.length, knownSequence r.base,
        match (Parser.mk (sampleTable 3) 1024 [(0x2000000000006, [8])]).buildFullPaths r with
        | some (.ok l) => l.map (·.1)
        | _ => [])
    | .error _ => none) = some (1, 2, [Str.ofString "/g", Str.ofString "/d/f"]) := by decide +kernel

/-- A cycle of directories. -/
example : (match (Parser.mk cyclicTable 1024 []).getRecord 6 (some 1) with
    | .ok r => (match (Parser.mk cyclicTable 1024 []).buildFullPaths r with
        | some (.ok l) => l.map (·.1)
        | _ => [])
    | .error _ => []) = [Str.ofString "<Orphan>/a/b/a"] := by decide +kernel

/-- C20 as stated fails: `/d/f` is found although the directory `d`, the only record with that name, has
been deleted. -/
theorem C20_deleted_directory_found : ∃ (file : Bytes) (p : Parser) (r : FileRecord) (v : Bytes) (d : FileRecordSegment),
    Parser.init file true = .ok p ∧ p.getRecordByPath id (Str.ofString "/d/f") true = .ok (some r) ∧
    fileNames r.attributes.items = [v, mkName 5 5 0 "g"] ∧ nameOf v = Str.ofString "f" ∧
    segmentAt file p.size (number (parentOf v)) = some d ∧ (flagsOf d).testBit 0 = false := by
  have key : (match (Parser.mk (sampleTable 2) 1024 [(0x2000000000006, [8])]).getRecordByPath id (Str.ofString "/d/f") true with
      | .ok (some r) => decide (fileNames r.attributes.items = [mkName 7 4 1 "f", mkName 5 5 0 "g"])
      | _ => false) = true := by decide +kernel
  have key2 : ((segmentAt (sampleTable 2) 1024 7).any fun d => (flagsOf d).testBit 0 == false) = true := by decide +kernel
  split at key
  · next r hr =>
    cases hd : segmentAt (sampleTable 2) 1024 7 with
    | none => rw [hd] at key2; cases key2
    | some d =>
      rw [hd] at key2
      exact ⟨sampleTable 2, _, r, mkName 7 4 1 "f", d, deletedTable_parser, hr, by simpa using key, by decide +kernel, hd,
        by simpa using key2⟩
  · cases key

end Verif.Props
