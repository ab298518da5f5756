/-
The table of a change journal (used to state C97).
-/
import Verif.Spec.USN
import Verif.Spec.Parser
import Verif.Model.Scripts.Text
namespace Verif.Spec.UsnTable
open Verif.MFT Verif.Spec.Parser Verif.Scripts

/-- The version of a record. -/
def version (b : Bytes) : Nat := leNat (slice b 4 6)

/-- A number in a record. -/
def field (b : Bytes) (i n : Nat) : Nat := leNat (slice b i (i + n))

/-- The references of the file and of its parent directory: 8 bytes each in version 2, 16 bytes in the others. -/
def file (b : Bytes) : Nat := if version b = 2 then field b 8 8 else field b 8 16
def parent (b : Bytes) : Nat := if version b = 2 then field b 16 8 else field b 24 16

def usn (b : Bytes) : Nat := if version b = 2 then field b 24 8 else field b 40 8
def reason (b : Bytes) : Nat := if version b = 2 then field b 40 4 else if version b = 3 then field b 56 4 else field b 48 4
def source (b : Bytes) : Nat := if version b = 2 then field b 44 4 else if version b = 3 then field b 60 4 else field b 52 4

/-- The timestamp (versions 2 and 3 only). -/
def timestamp (b : Bytes) : Nat := if version b = 2 then field b 32 8 else field b 48 8

/-- The length of the name and its place (versions 2 and 3 only). -/
def nameLength (b : Bytes) : Nat := if version b = 2 then field b 56 2 else field b 72 2
def nameOffset (b : Bytes) : Nat := if version b = 2 then field b 58 2 else field b 74 2

/-- The record has no name, or its name is inside of it. -/
def NameInside (b : Bytes) : Prop := version b = 4 ∨ nameLength b = 0 ∨ nameOffset b + nameLength b ≤ b.length

/-- The path column for a reference: the first path of the file record with that number and that sequence number; empty when there is no
such record, when it has no path, or when one of the exceptions of the file table is raised for it. -/
def PathFor (p : MFT.Parser) (reference : Nat) (path : Str) : Prop :=
  (∃ r v rest, p.getRecord (number reference) (some (sequence reference)) = .ok r ∧ p.buildFullPaths r = some (.ok ((path, v) :: rest))) ∨
  (path = [] ∧ ∀ r, p.getRecord (number reference) (some (sequence reference)) = .ok r →
    p.buildFullPaths r = some (.ok []) ∨ ∃ e, isMftExc e = true ∧ p.buildFullPaths r = some (.error e))

/-- The names of the columns. -/
def header : List Scripts.Cell := ["USN value", "Source", "Reason", "MFT reference number", "Parent MFT reference number", "Timestamp", "File name",
  "File path (from $MFT)"].map fun s => .str (Str.ofString s)

end Verif.Spec.UsnTable
