/-
What it means for a log file to have a record with a given LSN, and which LSNs are reached from the
restart pages and the log pages.
-/
import Verif.Model.LogFile.Pages
namespace Verif.Spec.Log
open Verif.LogFile

/-- The page `n` of the file is a valid log page with the (unprotected) contents `buf`. -/
def LogPage (p : Parser) (file : Bytes) (n : Nat) (buf : Bytes) : Prop :=
  (n + 1) * 4096 ≤ file.length ∧
  8 ≤ p.logPageDataOffset ∧ p.logPageDataOffset % 8 = 0 ∧
  ∃ endOfArray, unprotectSectors (slice file (n * 4096) ((n + 1) * 4096)) = .ok (buf, endOfArray) ∧
    endOfArray ≤ p.logPageDataOffset ∧
    (buf.take 4 = [0x52, 0x43, 0x52, 0x44] ∨ buf.take 4 = [0x43, 0x48, 0x4B, 0x44] ∨ buf.take 4 = [0x42, 0x41, 0x41, 0x44])

/-- The position that an LSN encodes is in a log page (not the page 0), after its header, and a whole
record header is there; `r` is the page from there on. -/
def HasRecord (p : Parser) (file : Bytes) (lsn : Nat) (r : Bytes) : Prop :=
  ∃ n off buf, n ≠ 0 ∧ off < 4096 ∧ n * 4096 + off = 8 * (lsn % 2 ^ (64 - p.sequenceNumberBits)) ∧
    LogPage p file n buf ∧ p.logPageDataOffset ≤ off ∧ off + p.recordHeaderLength ≤ 4096 ∧ p.recordHeaderLength % 8 = 0 ∧
    r = buf.drop off

/-- The log has a record with this LSN: the header at the position carries it. -/
def InLog (p : Parser) (file : Bytes) (lsn : Nat) : Prop := ∃ r, HasRecord p file lsn r ∧ leNat (slice r 0 8) = lsn

/-- The fields of a record header. -/
def previousOf (r : Bytes) : Nat := leNat (slice r 8 16)
def undoNextOf (r : Bytes) : Nat := leNat (slice r 16 24)
def dataLengthOf (r : Bytes) : Nat := leNat (slice r 24 28)

/-- The LSNs named by a restart page: the one of chkdsk, the current one, the oldest and the restart LSN
of each client. -/
inductive NamedByRestart (page : Bytes) : Nat → Prop
  | chkdsk : NamedByRestart page (leNat (slice page 8 16))
  | current : NamedByRestart page (leNat (slice (page.drop (leNat (slice page 24 26))) 0 8))
  | client (area : Bytes) (harea : area = page.drop (leNat (slice page 24 26))) (k : Nat) (hk : k < leNat (slice area 8 10))
      (record : Bytes) (hr : record = area.drop (k * 160 + leNat (slice area 22 24))) (field : Nat) (hf : field = 0 ∨ field = 8) :
      NamedByRestart page (leNat (slice record field (field + 8)))

/-- The LSNs named by the restart pages and by the log pages. -/
inductive Named (p : Parser) (file : Bytes) : Nat → Prop
  | restart1 (page : Bytes) (h : p.restartPage1 = some page) (lsn : Nat) (hl : NamedByRestart page lsn) : Named p file lsn
  | restart2 (page : Bytes) (h : p.restartPage2 = some page) (lsn : Nat) (hl : NamedByRestart page lsn) : Named p file lsn
  | lastLsn (n : Nat) (h2 : 2 ≤ n) (hn : n < p.fileSize / 4096) (buf : Bytes) (h : LogPage p file n buf) :
      Named p file (leNat (slice buf 8 16))
  | lastEndLsn (n : Nat) (h2 : 2 ≤ n) (hn : n < p.fileSize / 4096) (buf : Bytes) (h : LogPage p file n buf) :
      Named p file (leNat (slice buf 32 40))

/-- The LSNs that are named and are in the log, and those named by the record at a named position. -/
inductive Start (p : Parser) (file : Bytes) : Nat → Prop
  | named (lsn : Nat) (h : Named p file lsn) (hl : InLog p file lsn) : Start p file lsn
  | linked (lsn : Nat) (h : Named p file lsn) (r : Bytes) (hr : HasRecord p file lsn r) (y : Nat)
      (hy : y = previousOf r ∨ y = undoNextOf r) (hl : InLog p file y) : Start p file y

/-- What is reached from a set of LSNs by links to previous records. -/
inductive ByPrevious (p : Parser) (file : Bytes) (S : Nat → Prop) : Nat → Prop
  | start (lsn : Nat) (h : S lsn) : ByPrevious p file S lsn
  | step (lsn : Nat) (h : ByPrevious p file S lsn) (r : Bytes) (hr : HasRecord p file lsn r)
      (hl : InLog p file (previousOf r)) : ByPrevious p file S (previousOf r)

/-- What is reached from a set of LSNs by undo links. -/
inductive ByUndoNext (p : Parser) (file : Bytes) (S : Nat → Prop) : Nat → Prop
  | start (lsn : Nat) (h : S lsn) : ByUndoNext p file S lsn
  | step (lsn : Nat) (h : ByUndoNext p file S lsn) (r : Bytes) (hr : HasRecord p file lsn r)
      (hl : InLog p file (undoNextOf r)) : ByUndoNext p file S (undoNextOf r)

/-- The position after the data of a record at `(n, off)` with `len` bytes of data: in the page of the
record, or in a later one, where the data continues after the page header. -/
def DataEnd (p : Parser) (n off len m o : Nat) : Prop :=
  (m = n ∧ o = off + p.recordHeaderLength + len ∧ o ≤ 4096) ∨
  (∃ k, m = n + 1 + k ∧ p.logPageDataOffset ≤ o ∧ o < 4096 ∧
    off + p.recordHeaderLength + len = 4096 + k * (4096 - p.logPageDataOffset) + (o - p.logPageDataOffset) ∧
    4096 < off + p.recordHeaderLength + len)

/-- The record `y` is the next one after the record `x` in the same lap of the log: it is where the data
of `x` ends, or at the beginning of the page after that when there is no such record. -/
def Next (p : Parser) (file : Bytes) (x y : Nat) : Prop :=
  ∃ r, HasRecord p file x r ∧ 8 ≤ dataLengthOf r ∧ dataLengthOf r % 8 = 0 ∧
    InLog p file y ∧ y / 2 ^ (64 - p.sequenceNumberBits) = x / 2 ^ (64 - p.sequenceNumberBits) ∧
    ∃ n off m o, off < 4096 ∧ n * 4096 + off = 8 * (x % 2 ^ (64 - p.sequenceNumberBits)) ∧
      DataEnd p n off (dataLengthOf r) m o ∧ m * 4096 + 4096 ≤ p.fileSize ∧
      ((o < 4096 ∧ m * 4096 + o = 8 * (y % 2 ^ (64 - p.sequenceNumberBits))) ∨
       (m * 4096 + 4096 < p.fileSize ∧ (m + 1) * 4096 + p.logPageDataOffset = 8 * (y % 2 ^ (64 - p.sequenceNumberBits)) ∧
        ∀ z, InLog p file z → z / 2 ^ (64 - p.sequenceNumberBits) = x / 2 ^ (64 - p.sequenceNumberBits) →
          m * 4096 + o ≠ 8 * (z % 2 ^ (64 - p.sequenceNumberBits))))

/-- What is reached from a set of LSNs by going to the next record. -/
inductive ByNext (p : Parser) (file : Bytes) (S : Nat → Prop) : Nat → Prop
  | start (lsn : Nat) (h : S lsn) : ByNext p file S lsn
  | step (x y : Nat) (h : ByNext p file S x) (hn : Next p file x y) : ByNext p file S y

end Verif.Spec.Log
