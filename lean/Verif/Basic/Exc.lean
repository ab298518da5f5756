/-
Python exceptions as values, and generators.
-/
import Verif.Basic.Bytes
namespace Verif

/-- The Python exception classes that the modelled code can raise.  The first group are the
interpreter's own errors, the other groups are the classes defined by the package (the class, not
the message, is what callers can catch, so messages are not modelled). -/
inductive Exc where
  -- raised by the interpreter or the standard library
  | StructError | IndexError | TypeError | ValueError | AttributeError | KeyError
  | NotImplementedError | UnboundLocalError | OverflowError | RuntimeError | UnicodeDecodeError | ZeroDivisionError | AssertionError
  -- dfir_ntfs/MFT.py:48-75
  | MasterFileTableException | FileRecordSegmentException | FileRecordSegmentSignatureException
  | AttributeException | MappingPairsException
  -- dfir_ntfs/LogFile.py:187-229
  | LogFileException | UpdateSequenceArrayException | RestartPageException | EmptyLogFileException
  | RestartAreaException | ClientRecordException | LogRecordPageException | ClientException
  -- dfir_ntfs/ShadowCopy.py:56-102
  | ShadowCopyException | InvalidVolume | ShadowCopyNotFoundException | ShadowBlockException
  | StartBlockException | ShadowCopiesDisabledException | ControlBlockException
  | ControlBlockItemException
  -- dfir_ntfs/BootSector.py:8, dfir_ntfs/addons/FAT.py:490, addons/exFAT.py:296-314
  | BootSectorException | BootRegionException | BootRegionChecksumException
  | FileSystemException | FileSystemInfoException | FileAllocationTableException
  | DirectoryEntriesException
  deriving DecidableEq, Repr

/-- The observable behaviour of a generator that is iterated to its end: the items it yields, in
order, and the exception that ends the iteration, if any. -/
structure Gen (α : Type) where
  items : List α
  err : Option Exc
  deriving DecidableEq, Repr

namespace Gen
/-- A generator that ends normally without (further) items. -/
def done {α} : Gen α := ⟨[], none⟩
/-- A generator that raises. -/
def fail {α} (e : Exc) : Gen α := ⟨[], some e⟩
/-- `yield a` followed by the rest. -/
def cons {α} (a : α) (g : Gen α) : Gen α := ⟨a :: g.items, g.err⟩
/-- `for x in g: yield x` followed by the rest (which is not run when `g` raises). -/
def append {α} (g h : Gen α) : Gen α :=
  match g.err with
  | some e => ⟨g.items, some e⟩
  | none => ⟨g.items ++ h.items, h.err⟩
@[simp] theorem items_done {α} : (done : Gen α).items = [] := rfl
@[simp] theorem err_done {α} : (done : Gen α).err = none := rfl
@[simp] theorem items_fail {α} (e : Exc) : (fail e : Gen α).items = [] := rfl
@[simp] theorem err_fail {α} (e : Exc) : (fail e : Gen α).err = some e := rfl
@[simp] theorem items_cons {α} (a : α) (g : Gen α) : (cons a g).items = a :: g.items := rfl
@[simp] theorem err_cons {α} (a : α) (g : Gen α) : (cons a g).err = g.err := rfl
end Gen

/-- `struct.unpack('<B' / '<H' / '<L' / '<Q', bs)[0]` with the length check of `struct`:
`n` is the size of the format. -/
def unpackLE (n : Nat) (bs : Bytes) : Except Exc Nat :=
  if bs.length = n then .ok (leNat bs) else .error .StructError

/-- `f.seek(off); f.read(n)` on a file object with contents `b`.  The file objects of Python convert
offsets and sizes to a signed 64-bit integer and raise `OverflowError` when they do not fit. -/
def seekRead (b : Bytes) (off n : Nat) : Except Exc Bytes :=
  if off ≥ 2 ^ 63 ∨ n ≥ 2 ^ 63 then .error .OverflowError else .ok (slice b off (off + n))

/-- `b[i]` with the bounds check of Python. -/
def index (b : Bytes) (i : Nat) : Except Exc Nat :=
  match b[i]? with
  | some x => .ok x.toNat
  | none => .error .IndexError

instance {ε α} [DecidableEq ε] [DecidableEq α] : DecidableEq (Except ε α)
  | .ok a, .ok b => if h : a = b then isTrue (by rw [h]) else isFalse (by intro h'; cases h'; exact h rfl)
  | .error a, .error b => if h : a = b then isTrue (by rw [h]) else isFalse (by intro h'; cases h'; exact h rfl)
  | .ok _, .error _ => isFalse (by intro h; cases h)
  | .error _, .ok _ => isFalse (by intro h; cases h)

/-! ### Case analysis of chains of checks (much cheaper than `split`) -/

/-- A passed check. -/
theorem of_ite_error {α : Type} {c : Prop} [Decidable c] {e : Exc} {x : Except Exc α} {r : α}
    (h : (if c then .error e else x) = .ok r) : ¬ c ∧ x = .ok r := by
  by_cases hc : c
  · rw [if_pos hc] at h; cases h
  · rw [if_neg hc] at h; exact ⟨hc, h⟩

/-- A failed check, or a later failure. -/
theorem error_of_ite {α : Type} {c : Prop} [Decidable c] {e e' : Exc} {x : Except Exc α}
    (h : (if c then .error e else x) = .error e') : e' = e ∨ (¬ c ∧ x = .error e') := by
  by_cases hc : c
  · rw [if_pos hc] at h; cases h; exact .inl rfl
  · rw [if_neg hc] at h; exact .inr ⟨hc, h⟩

theorem of_seekRead {b : Bytes} {off n : Nat} {d : Bytes} (h : seekRead b off n = .ok d) :
    d = slice b off (off + n) ∧ off < 2 ^ 63 ∧ n < 2 ^ 63 := by
  unfold seekRead at h
  obtain ⟨h1, h2⟩ := of_ite_error h
  cases h2
  exact ⟨rfl, by omega⟩

theorem error_of_seekRead {b : Bytes} {off n : Nat} {e : Exc} (h : seekRead b off n = .error e) : e = .OverflowError := by
  unfold seekRead at h
  rcases error_of_ite h with h | ⟨_, h⟩
  · exact h
  · cases h

theorem seekRead_ok {b : Bytes} {off n : Nat} (h1 : off < 2 ^ 63) (h2 : n < 2 ^ 63) :
    seekRead b off n = .ok (slice b off (off + n)) := by
  unfold seekRead; rw [if_neg (by omega)]

end Verif
