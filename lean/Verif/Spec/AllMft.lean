/-
The file tables of a volume and of its shadow copies in one list, independently of the code (used to state C109).
-/
import Verif.Model.Scripts.AllMft
import Verif.Spec.MftTable
import Verif.Spec.Mount
namespace Verif.Spec.AllMft
open Verif.Scripts Verif.ShadowCopy Verif.Spec.Shadow Verif.Spec.Mount Verif.Spec.MftTable

/-- The volume with nothing known about its size, and with its shadow copies on itself. -/
def local_ (volume : Bytes) (off : Nat) : Image := ⟨volume, off, none, none⟩

/-- A file object with these bytes: `seek(p)` and then `read(n)`. -/
def fileOf (volume : Bytes) : MFT.Device := fun p n => .ok (slice volume p (p + n))

/-- The bytes of a shadow copy from the position `p` on (C41 says what they are), at most `n` of them, up to the first one that the image
does not have and up to the end of the last block. -/
def shadowBytes (img : Image) (stores : List Store) (p : Nat) : Nat → Bytes
  | 0 => []
  | n + 1 =>
    if roundUp (shadowSize img stores) ≤ p then []
    else match byteAt img stores p with
      | none => []
      | some x => x :: shadowBytes img stores (p + 1) n

/-- A file object with the bytes of a shadow copy. -/
def shadowOf (img : Image) (stores : List Store) : MFT.Device := fun p n => .ok (shadowBytes img stores p n)

/-- `rows` are the rows for the file records of the volume, in the order of the records (C98 says what those of one record are), with
`tag` in their first column.  The whole file table can be read. -/
def TableOf (volume : MFT.Device) (off : Nat) (tag : Str) (rows : List Row) : Prop :=
  ∃ f mft p, ∃ blocks : List (List Row), MFT.openDevice volume off = .ok f ∧ f.contents = .ok mft ∧ MFT.Parser.init mft = .ok p ∧ rows = blocks.flatten ∧
    blocks.length = p.fileRecords.items.length ∧
    ∀ (i : Nat) block, blocks[i]? = some block → ∃ r, p.fileRecords.items[i]? = some r ∧ IsBlock mft p (some tag) r block

/-- `rows` are those for the first file records of the volume, and the first ones of those for the next one. -/
def BeginsTableOf (volume : MFT.Device) (off : Nat) (tag : Str) (rows : List Row) : Prop :=
  rows = [] ∨ ∃ f mft p, ∃ (blocks : List (List Row)) (more : List Row), MFT.openDevice volume off = .ok f ∧ f.contents = .ok mft ∧
    MFT.Parser.init mft = .ok p ∧ rows = blocks.flatten ++ more ∧ blocks.length ≤ p.fileRecords.items.length ∧
    (∀ (i : Nat) block, blocks[i]? = some block → ∃ r, p.fileRecords.items[i]? = some r ∧ IsBlock mft p (some tag) r block) ∧
    (more = [] ∨ ∃ r, p.fileRecords.items[blocks.length]? = some r ∧ BeginsBlock mft p (some tag) r more)

/-- The number, the GUID and the size of the volume in the slot of a shadow copy. -/
def numberOf (raw : Bytes) : Nat := leNat (slice raw 32 40)
def guidOf (raw : Bytes) : Bytes := slice raw 16 32

/-- `stores` is the shadow copy in the slot `raw`: the slot is the only one with its GUID, the shadow copy is the one with this GUID, and it
has the size in the slot. -/
def ShadowOf (volume : Bytes) (off fuel : Nat) (slots : List Bytes) (raw : Bytes) (stores : List Store) : Prop :=
  (∀ other ∈ slots, guidOf other = guidOf raw → other = raw) ∧
  select (local_ volume off) fuel (.guid (guidOf raw)) = some (.ok stores) ∧ shadowSize (local_ volume off) stores = slotSize raw

/-- The tag of a shadow copy: `shadow copy ` and its number. -/
def tagOf (raw : Bytes) : Str := Str.ofString "shadow copy " ++ decimal (numberOf raw)

/-- The tables of shadow copies, in the order of the slots. -/
def Tables (volume : Bytes) (off fuel : Nat) (slots : List Bytes) (tables : List (List Row)) : Prop :=
  tables.length ≤ slots.length ∧
  ∀ (i : Nat) raw rows, slots[i]? = some raw → tables[i]? = some rows →
    ∃ stores, ShadowOf volume off fuel slots raw stores ∧ TableOf (shadowOf (local_ volume off) stores) 0 (tagOf raw) rows

/-- The rows that follow those for the volume itself in a list that was stopped at the shadow copies: none, when they cannot be opened or when
a slot of them cannot be used; otherwise, the tables of the shadow copies before the one in the slot `raw`, and some rows of its table. -/
def StoppedAtShadows (volume : Bytes) (off fuel : Nat) (rest : List Row) : Prop :=
  (rest = [] ∧ ((∃ e, openVolume (local_ volume off) fuel = some (.error e) ∧ e ≠ .ShadowCopiesDisabledException) ∨
    ∃ o, openVolume (local_ volume off) fuel = some (.ok o) ∧ ¬ ∀ b ∈ o.controlBlocks, badSlot b = none)) ∨
  ∃ o tables more raw, openVolume (local_ volume off) fuel = some (.ok o) ∧ (∀ b ∈ o.controlBlocks, badSlot b = none) ∧
    rest = tables.flatten ++ more ∧ Tables volume off fuel (o.controlBlocks.flatMap shadowSlots) tables ∧
    (o.controlBlocks.flatMap shadowSlots)[tables.length]? = some raw ∧
    (more = [] ∨ ∃ stores, ShadowOf volume off fuel (o.controlBlocks.flatMap shadowSlots) raw stores ∧
      BeginsTableOf (shadowOf (local_ volume off) stores) 0 (tagOf raw) more)

/-- There are no shadow copies on the volume: it is too short, or its start block is not the one of shadow copies (see C107). -/
def Disabled (volume : Bytes) (off : Nat) : Prop :=
  (volumeStart volume off).length < 8192 ∨ (Recognised (volumeStart volume off) ∧ ¬ IsStartBlock (volumeStart volume off))

end Verif.Spec.AllMft
