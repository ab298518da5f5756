/-
The file system of `vsc_mount` and its list of shadow copies independently of the code (used to state C105-C107).
-/
import Verif.Model.Scripts.Mount
import Verif.Spec.ShadowCopy
import Verif.Spec.Text
namespace Verif.Spec.Mount
open Verif.Scripts Verif.ShadowCopy Verif.Spec.Shadow Verif.Spec.Text

/-! ### Requests -/

/-- The requests that would change something: those that create, remove, rename or write something or change attributes, those that
would write data out, and opening a file for writing (bit 0 and bit 1 of the flags are `O_WRONLY` and `O_RDWR`, bit 10 is
`O_APPEND`). -/
def Modifies : Request → Prop
  | .create _ _ | .mkdir _ _ | .mknod _ _ | .symlink _ _ _ | .link _ _ _ => True
  | .unlink _ _ | .rmdir _ _ | .rename _ _ _ _ => True
  | .write _ _ _ | .setattr _ | .fsync _ | .fsyncdir _ => True
  | .open _ flags => flags.testBit 0 = true ∨ flags.testBit 1 = true ∨ flags.testBit 10 = true
  | _ => False

/-- What the file system answers to a request after a history of other requests. -/
def replyAfter (m : Mounted) (history : List Request) (r : Request) : Option (Except FsError Reply) :=
  (m.run 0 (history ++ [r])).getLast?

/-- The attributes of a read-only regular file (type 8 in the upper bits of the mode, with no permission for anyone else to write)
of `n` bytes: it has enough blocks of 512 bytes, and not one more than needed. -/
structure IsImageFile (a : EntryAttributes) (n : Nat) : Prop where
  regular : a.mode / 0x1000 = 8
  others : a.mode.testBit 1 = false ∧ a.mode.testBit 4 = false
  size : a.size = n
  links : a.nlink = 1
  enough : n ≤ 512 * a.blocks
  tight : 512 * a.blocks < n + 512

/-- The attributes of a directory (type 4). -/
def IsDirectory (a : EntryAttributes) : Prop := a.mode / 0x1000 = 4 ∧ a.size = 0

/-- The names `image.raw`, `EMPTY` and `ORIGINAL` in bytes. -/
def ascii (s : String) : Bytes := s.toList.map fun c => UInt8.ofNat c.toNat

/-! ### The alternate fill -/

/-- A word, filled up with spaces to 16 characters and repeated. -/
def pattern (word : String) (p : Nat) : UInt8 := (ascii word).getD (p % 16) 0x20

/-- The byte at the position `p` of a shadow copy with the alternate fill: a sector that is not stored anywhere shows the word
`EMPTY`, one that is read from its own place on the volume shows `ORIGINAL`, another one shows its data. -/
def fillByte (img : Image) (stores : List Store) (p : Nat) : Option UInt8 :=
  match sector stores (p / 0x4000 * 0x4000) true false (p % 0x4000 / 512) with
  | .zero => some (pattern "EMPTY" p)
  | .volume o => if o = p / 512 * 512 then some (pattern "ORIGINAL" p) else img.volume[img.volumeOffset + o + p % 512]?
  | .store o => if o = p / 512 * 512 then some (pattern "ORIGINAL" p) else img.store.1[img.store.2 + o + p % 512]?

/-! ### The list of the shadow copies -/

/-- The 128-byte slots of a control block, after its header of 128 bytes. -/
def itemSlots (block : Bytes) : List Bytes := (List.range 127).map fun i => slice block (0x80 + 128 * i) (0x80 + 128 * i + 128)

/-- The type of a slot: 1 is free, 2 describes a shadow copy, 3 says where its store is. -/
def slotType (raw : Bytes) : Nat := leNat (slice raw 0 4)
/-- The size of the volume of a shadow copy. -/
def slotSize (raw : Bytes) : Nat := leNat (slice raw 8 16)

/-- A slot that can be used. -/
def ValidItem (raw : Bytes) : Prop := (1 ≤ slotType raw ∧ slotType raw ≤ 3) ∧ ¬ (slotType raw = 2 ∧ slotSize raw = 0)
instance (raw : Bytes) : Decidable (ValidItem raw) := by unfold ValidItem; infer_instance

/-- The slots before the first one that cannot be used. -/
def validItems (block : Bytes) : List Bytes := (itemSlots block).takeWhile fun r => decide (ValidItem r)

/-- The slots of a control block that describe shadow copies. -/
def shadowSlots (block : Bytes) : List Bytes := (validItems block).filter fun r => decide (slotType r = 2)

/-- The first slot that cannot be used, if its type is not 0 (which ends the list). -/
def badSlot (block : Bytes) : Option Bytes :=
  match (itemSlots block).find? fun r => decide (¬ ValidItem r) with
  | some r => if slotType r = 0 then none else some r
  | none => none

/-- The line of a shadow copy: its position and its time, `None` when the time is after the year 9999.  The fraction of the second is left
out when it is zero. -/
def IsLine (raw : Bytes) (line : Str) : Prop :=
  ∃ position time : Str, line = Str.ofString "  Stack position: " ++ position ++ Str.ofString ", timestamp (UTC): " ++ time ∧
    decimalValue position = some (leNat (slice raw 32 40)) ∧ (position = [0x30] ∨ position.head? ≠ some 0x30) ∧
    match Attributes.decodeFiletime (leNat (slice raw 48 56)) with
    | none => time = Str.ofString "None"
    | some t =>
      (t % 1000000 ≠ 0 ∧ Denotes time (dayNumber 1601 1 1 * 86400000000 + t)) ∨
      (t % 1000000 = 0 ∧ Denotes (time ++ Str.ofString ".000000") (dayNumber 1601 1 1 * 86400000000 + t))

/-- The first 8192 bytes of a volume. -/
def volumeStart (volume : Bytes) (offset : Nat) : Bytes := slice volume offset (offset + 8192)

/-- A volume that is recognised: its first sector is that of NTFS or ReFS. -/
def Recognised (start : Bytes) : Prop := slice start 3 7 = ascii "NTFS" ∨ slice start 3 7 = ascii "ReFS"

/-- The block at 7680 that says where the first control block is: its GUID, its type and the places it records. -/
def IsStartBlock (start : Bytes) : Prop :=
  slice start 7680 7696 = blockGuid ∧ leNat (slice start 7700 7704) = 1 ∧ leNat (slice start 7704 7712) = 7680 ∧
  leNat (slice start 7712 7720) = 7680 ∧ leNat (slice start 7720 7728) = 0

end Verif.Spec.Mount
