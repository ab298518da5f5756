/-
Model of ntfs_parser:957-1036 and fat_parser:60-124: the command line, the files that are opened and what is written to them.
-/
import Verif.Model.Scripts.AllMft
import Verif.Model.Scripts.Log
import Verif.Model.Scripts.Mem
import Verif.Model.Scripts.Move
import Verif.Model.Scripts.Fat
namespace Verif.Scripts

/-! ### Files -/

/-- The files that a program can see (ntfs_parser:975-976: what `open` works on): the file that a path leads to (two paths can lead to the
same one), the bytes in each file, and what the operating system permits.  `next` is the number of the next file that is created.  A path
that leads to no file does not become another name of a file that is created for a different path. -/
structure Disk where
  file : Str → Option Nat
  data : Nat → Bytes
  readable : Nat → Bool
  writable : Nat → Bool
  creatable : Str → Bool
  next : Nat

/-- Replace the bytes in a file (ntfs_parser:976). -/
def Disk.put (d : Disk) (n : Nat) (bytes : Bytes) : Disk := { d with data := fun k => if k = n then bytes else d.data k }

/-- `open(path, 'rb')` (ntfs_parser:975); `none` is an exception. -/
def Disk.openRead (d : Disk) (path : Str) : Option Nat := (d.file path).filter d.readable

/-- `open(path, 'w', …)` (ntfs_parser:976): the file is created, or emptied if it exists; `none` is an exception. -/
def Disk.openWrite (d : Disk) (path : Str) : Option (Nat × Disk) :=
  match d.file path with
  | some n => if d.writable n then some (n, d.put n []) else none
  | none =>
    if d.creatable path then
      some (d.next, { d.put d.next [] with
        file := fun p => if p = path then some d.next else d.file p
        readable := fun k => if k = d.next then true else d.readable k
        writable := fun k => if k = d.next then true else d.writable k
        next := d.next + 1 })
    else none

/-! ### Writing -/

/-- How a program ends (ntfs_parser:957-1036): with the usage text, with an exception, or at the end of the script. -/
inductive Outcome where
  | usage
  | failed
  | finished
  deriving DecidableEq, Repr

/-- The outcome and the files after it (ntfs_parser:1036). -/
structure Result where
  outcome : Outcome
  disk : Disk

/-- Write one thing after another (ntfs_parser:85, 940): the bytes that were written, and whether all of it could be encoded.  Nothing of
the thing that cannot be encoded is written.  (What is buffered is written when the file is closed, which happens after an exception as
well.) -/
def writeAll {α : Type} (encode : α → Option Bytes) : List α → Bytes × Bool
  | [] => ([], true)
  | a :: rest =>
    match encode a with
    | none => ([], false)
    | some b => (b ++ (writeAll encode rest).1, (writeAll encode rest).2)

/-- One row (ntfs_parser:976-977). -/
def encodeRow (r : Row) : Option Bytes := utf8 (csvRow (r.map Cell.text))

/-- The output file after the program has run (ntfs_parser:979-1036). -/
def finish {α : Type} (encode : α → Option Bytes) (d : Disk) (out : Nat) (g : Gen α) : Result :=
  ⟨if (writeAll encode g.items).2 = true ∧ g.err = none then .finished else .failed, d.put out (writeAll encode g.items).1⟩

/-- Open the output file, run a function on the files and write what it gives (ntfs_parser:976-979).  The input is read after the output file
was opened, all of it before something is written (this matters only when they are the same file). -/
def produce {α : Type} (encode : α → Option Bytes) (d : Disk) (out : Str) (run : (Nat → Bytes) → Option (Gen α)) : Option Result :=
  match d.openWrite out with
  | none => some ⟨.failed, d⟩
  | some (n, d') =>
    match run d'.data with
    | none => none
    | some g => some (finish encode d' n g)

/-- One input file (ntfs_parser:974-979, 1023-1033). -/
def withOne {α : Type} (encode : α → Option Bytes) (d : Disk) (a out : Str) (run : Bytes → Option (Gen α)) : Option Result :=
  match d.openRead a with
  | none => some ⟨.failed, d⟩
  | some n => produce encode d out fun data => run (data n)

/-- Two input files (ntfs_parser:980-996). -/
def withTwo {α : Type} (encode : α → Option Bytes) (d : Disk) (a b out : Str) (run : Bytes → Bytes → Option (Gen α)) : Option Result :=
  match d.openRead a with
  | none => some ⟨.failed, d⟩
  | some n =>
    match d.openRead b with
    | none => some ⟨.failed, d⟩
    | some m => produce encode d out fun data => run (data n) (data m)

/-- An input file and an offset (ntfs_parser:997-1022, fat_parser:64-82).  A negative offset raises an exception at the first seek, when the
output file is already open. -/
def withOffset (int : Str → Option Int) (d : Disk) (a offset out : Str) (run : Bytes → Nat → Option (Gen Row)) : Option Result :=
  match d.openRead a with
  | none => some ⟨.failed, d⟩
  | some n =>
    match int offset with
    | none => some ⟨.usage, d⟩                                                                 -- 1001-1003
    | some o => produce encodeRow d out fun data => if o < 0 then some (.fail .ValueError) else run (data n) o.toNat

/-! ### The programs -/

/-- ntfs_parser:957-1036, for the arguments after the name of the program.  `int` is Python's conversion of a string to an integer (`none` is
`ValueError`), `order` is the order in which a Python set is iterated, `fuel` bounds loops; `none` means that it was reached. -/
def ntfsParser (int : Str → Option Int) (order : List Nat → List Nat) (fuel : Nat) (args : List Str) (d : Disk) : Option Result :=
  match args with
  | [mode, a, out] =>
    if mode = Str.ofString "--mft" then withOne encodeRow d a out fun file => some (processMft file none true)        -- 974-979
    else if mode = Str.ofString "--mem" then withOne encodeRow d a out fun file => some (processMem file)             -- 1023-1028
    else if mode = Str.ofString "--move" then withOne utf8 d a out fun file => some (processMoveTable file)           -- 1029-1033
    else some ⟨.usage, d⟩                                                                                             -- 962-972
  | [mode, a, b, out] =>
    if mode = Str.ofString "--usn" then withTwo encodeRow d a b out fun mft journal => processUsn journal mft         -- 980-988
    else if mode = Str.ofString "--log" then withTwo utf8 d a b out fun mft log => processLog log mft order fuel      -- 989-996
    else if mode = Str.ofString "--indx" then withOffset int d a b out fun image o => some (processIndx image o)      -- 997-1008
    else if mode = Str.ofString "--all-mft" then withOffset int d a b out fun image o => processAllMft image o fuel   -- 1009-1022
    else some ⟨.usage, d⟩                                                                                             -- 962-972
  | _ => some ⟨.usage, d⟩                                                                                             -- 957-959

/-- fat_parser:60-124, for the arguments after the name of the program. -/
def fatParserMain (int : Str → Option Int) (order : List Nat → List Nat) (depth : Nat) (args : List Str) (d : Disk) : Option Result :=
  match args with
  | [a, offset, out] => withOffset int d a offset out fun image o => fatParser image o order depth
  | _ => some ⟨.usage, d⟩                                                                                             -- 60-62

end Verif.Scripts
