/-
Model of ntfs_parser:862-881 (`--all-mft`: the file tables of a volume and of its shadow copies).
-/
import Verif.Model.Scripts.Index
import Verif.Model.MFT.Device
import Verif.Model.ShadowCopy.Fill
namespace Verif.Scripts
open Verif.ShadowCopy

/-- dfir_ntfs/ShadowCopy.py:1177-1253: `seek(position)` and then `read(n)`, with a selected shadow copy. -/
def shadowDevice (img : Image) (stores : List Store) : MFT.Device := fun position n => (ShadowCopy.read img stores position (some n)).1

/-- ntfs_parser:866-870 and 880-881 (with 61-62 of `process_mft`): the rows for the file table of one volume.  The constructor reads all of the
file and can fail at each part of it; what is read after that are parts of what was read then (C119), and are taken from the contents of the
file here.  (A file with a size that is not a multiple of the size of a file record segment is a simplification: the part of a segment at
its end is missing here.) -/
def deviceTable (volume : MFT.Device) (volumeOffset : Nat) (tag : Str) (printHeader : Bool) : Gen Row :=
  andThen (MFT.openDevice volume volumeOffset) fun f =>
  andThen (MFT.initFrom f.readAt f.fileSize) fun _ =>
  andThen f.contents fun mft => processMft mft (some tag) printHeader

/-- ntfs_parser:881: the tag of a shadow copy. -/
def shadowTag (i : Information) : Str := Str.ofString "shadow copy " ++ decimal i.stackPosition

/-- ntfs_parser:878-881: the loop over the shadow copies; `err` is the exception that ends `shadows()`, if any.  (The header was written
for the main volume.)  The object is the same for all shadow copies, and `select_shadow` replaces what it remembers of the one selected
before.  `none` means that the bound `fuel` was reached. -/
def shadowTables (img : Image) (fuel : Nat) (err : Option Exc) : List Information → Option (Gen Row)
  | [] => some ⟨[], err⟩
  | i :: rest =>
    match select img fuel (.guid i.storeGuid) with                                             -- 879
    | none => none
    | some (.error e) => some (.fail e)
    | some (.ok stores) =>
      match deviceTable (shadowDevice img stores) 0 (shadowTag i) false with                   -- 880-881
      | ⟨rows, some e⟩ => some ⟨rows, some e⟩
      | ⟨rows, none⟩ => (shadowTables img fuel err rest).map fun g => ⟨rows ++ g.items, g.err⟩

/-- ntfs_parser:862-881 `process_all_mft`. -/
def processAllMft (volume : Bytes) (volumeOffset fuel : Nat) : Option (Gen Row) :=
  match deviceTable (seekRead volume) volumeOffset (Str.ofString "main volume") true with                 -- 865-870
  | ⟨rows, some e⟩ => some ⟨rows, some e⟩
  | ⟨rows, none⟩ =>
    match openVolume ⟨volume, volumeOffset, none, none⟩ fuel with                              -- 873
    | none => none
    | some (.error e) => some ⟨rows, if e = .ShadowCopiesDisabledException then none else some e⟩   -- 874-875
    | some (.ok o) =>
      (shadowTables ⟨volume, volumeOffset, none, none⟩ fuel (shadows o.controlBlocks).err (shadows o.controlBlocks).items).map
        fun g => ⟨rows ++ g.items, g.err⟩

end Verif.Scripts
