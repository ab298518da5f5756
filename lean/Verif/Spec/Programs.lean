/-
What the command-line programs do to files, independently of the code (used to state C110).
-/
import Verif.Model.Scripts.Main
namespace Verif.Spec.Programs
open Verif.Scripts

/-- The bytes in the file that a path leads to. -/
def content (d : Disk) (path : Str) : Option Bytes := (d.file path).map d.data

/-- The number of a file that is created is not that of a file which exists. -/
def Sound (d : Disk) : Prop := ∀ path n, d.file path = some n → n < d.next

/-- Two paths are the same, or lead to the same file. -/
def SamePlace (d : Disk) (p q : Str) : Prop := p = q ∨ ∃ n, d.file p = some n ∧ d.file q = some n

/-- The path leads to a file that may be read, with these bytes. -/
def Readable (d : Disk) (path : Str) (bytes : Bytes) : Prop := ∃ n, d.file path = some n ∧ d.readable n = true ∧ d.data n = bytes

/-- The path leads to a file that may be written, or a file may be created there. -/
def CanWrite (d : Disk) (path : Str) : Prop :=
  (∃ n, d.file path = some n ∧ d.writable n = true) ∨ (d.file path = none ∧ d.creatable path = true)

/-- What a program computes: rows of a table, or pieces of text. -/
inductive Report where
  | rows (g : Gen Row)
  | text (g : Gen Str)

/-- `bytes` are the first `n` of these pieces of text in UTF-8. -/
def Encoded (pieces : List Str) (n : Nat) (bytes : Bytes) : Prop := utf8 (pieces.take n).flatten = some bytes

/-- The pieces of text in a report: the lines of the CSV file, or the text itself. -/
def Report.pieces : Report → List Str
  | .rows g => g.items.map fun r => csvRow (r.map Cell.text)
  | .text g => g.items

/-- The exception that ends the computation, if any. -/
def Report.err : Report → Option Exc
  | .rows g => g.err
  | .text g => g.err

/-- `bytes` is what is written: the program ends normally with all of it, or it ends with an exception, with all that comes before the
exception: either the computation raised it, or the next piece cannot be encoded. -/
def Report.Written (report : Report) (bytes : Bytes) : Outcome → Prop
  | .usage => False
  | .finished => report.err = none ∧ Encoded report.pieces report.pieces.length bytes
  | .failed =>
    (report.err ≠ none ∧ Encoded report.pieces report.pieces.length bytes) ∨
    ∃ n piece, report.pieces[n]? = some piece ∧ utf8 piece = none ∧ Encoded report.pieces n bytes

/-- What is asked from `ntfs_parser` with these arguments: `inputs` are the files to read, `out` is the file to write. -/
inductive Asked (int : Str → Option Int) (order : List Nat → List Nat) (fuel : Nat) (d : Disk) : List Str → List Str → Str → Report → Prop
  | mft {a out file} : Readable d a file → Asked int order fuel d [Str.ofString "--mft", a, out] [a] out (.rows (processMft file none true))
  | usn {m j out mft journal g} : Readable d m mft → Readable d j journal → processUsn journal mft = some g →
      Asked int order fuel d [Str.ofString "--usn", m, j, out] [m, j] out (.rows g)
  | log {m l out mft log g} : Readable d m mft → Readable d l log → processLog log mft order fuel = some g →
      Asked int order fuel d [Str.ofString "--log", m, l, out] [m, l] out (.text g)
  | indx {a o out image k} : Readable d a image → int o = some (Int.ofNat k) →
      Asked int order fuel d [Str.ofString "--indx", a, o, out] [a] out (.rows (processIndx image k))
  | allMft {a o out image k g} : Readable d a image → int o = some (Int.ofNat k) → processAllMft image k fuel = some g →
      Asked int order fuel d [Str.ofString "--all-mft", a, o, out] [a] out (.rows g)
  | mem {a out image} : Readable d a image → Asked int order fuel d [Str.ofString "--mem", a, out] [a] out (.rows (processMem image))
  | move {a out file} : Readable d a file → Asked int order fuel d [Str.ofString "--move", a, out] [a] out (.text (processMoveTable file))

/-- What is asked from `fat_parser`. -/
inductive AskedFat (int : Str → Option Int) (order : List Nat → List Nat) (depth : Nat) (d : Disk) : List Str → List Str → Str → Report → Prop
  | mk {a o out image k g} : Readable d a image → int o = some (Int.ofNat k) → fatParser image k order depth = some g →
      AskedFat int order depth d [a, o, out] [a] out (.rows g)

/-- The arguments have one of the seven forms in the usage text of `ntfs_parser`. -/
def Usage (args : List Str) : Prop :=
  (∃ mode a out, args = [mode, a, out] ∧ mode ∈ ["--mft", "--mem", "--move"].map Str.ofString) ∨
  (∃ mode a b out, args = [mode, a, b, out] ∧ mode ∈ ["--usn", "--log", "--indx", "--all-mft"].map Str.ofString)

/-- The arguments ask for a volume at an offset. -/
def UsageOffset (args : List Str) (a offset : Str) : Prop :=
  ∃ mode out, args = [mode, a, offset, out] ∧ mode ∈ ["--indx", "--all-mft"].map Str.ofString

/-- The arguments name these files to read and this file to write. -/
def Names (args : List Str) (inputs : List Str) (out : Str) : Prop :=
  (∃ mode a, args = [mode, a, out] ∧ inputs = [a] ∧ mode ∈ ["--mft", "--mem", "--move"].map Str.ofString) ∨
  (∃ mode a b, args = [mode, a, b, out] ∧ inputs = [a, b] ∧ mode ∈ ["--usn", "--log"].map Str.ofString) ∨
  (∃ mode a o, args = [mode, a, o, out] ∧ inputs = [a] ∧ mode ∈ ["--indx", "--all-mft"].map Str.ofString)

end Verif.Spec.Programs
