/-
Specification for walks over a FAT volume: the same walk with a guard at the door of every directory.
-/
import Verif.Spec.FATDirectory
import Verif.Model.FAT.Parser
namespace Verif.Spec.FAT
open Verif.FAT Volume

/-- The walk over a directory when `path` has the first clusters of the directories on the way to it (and its
own): there is no result (`none`) when a directory is to be entered that is on the path already.  `limit` is the
greatest number of directories that a path can have; there is no result when that is exceeded. -/
def guarded (v : Volume) (codec : Codec) (scanReallocated : Bool) : (limit : Nat) → (path : List Nat) → Bytes → Str → List Nat → Seen → Option Walk
  | 0, _ => fun _ _ _ _ => none
  | limit + 1, path =>
    v.oneDirectory codec scanReallocated fun cluster =>
      if cluster ∈ path then fun _ _ _ _ => none else guarded v codec scanReallocated limit (cluster :: path)

/-- The first cluster of the root directory of a FAT32 volume; the other ones have no cluster for it. -/
def rootPath (v : Volume) : List Nat :=
  if v.table.type = .fat32 then [u32 v.bsbpb.buf 44] else []

/-- The slots of a directory with an empty piece of a long name: the first of its units is null. -/
def EmptyPiece (slot : Bytes) : Prop := isLongSlot slot ∧ slice slot 1 3 = [0, 0]

/-- The entry is one of a directory, but not one of the two for the directory itself and for the one above it. -/
def IsSubdirectory (e : FileEntry) : Prop := e.isDirectory = true ∧ e.shortName ≠ Str.ofString "." ∧ e.shortName ≠ Str.ofString ".."

/-- The entry is one for a directory that is on the path already. -/
def Loops (path : List Nat) (e : FileEntry) : Prop := IsSubdirectory e ∧ e.firstCluster ≠ 0 ∧ e.firstCluster ∈ path

/-- The next cluster is taken for a part of a deleted directory: the chain has one cluster only, the next one is free, the
last three slots of the directory are in use, and so is the first one of the next cluster, which is not the begin of a
directory. -/
def Extends (v : Volume) (first : Nat) (whole extra : Bytes) : Prop :=
  (∃ cluster, v.table.chain first = .ok [cluster]) ∧ v.table.isAllocated (first + 1) = .ok (some false) ∧ v.readChain (first + 1) none = .ok extra ∧
  u8 whole (whole.length - 96) ≠ 0 ∧ u8 whole (whole.length - 64) ≠ 0 ∧ u8 whole (whole.length - 32) ≠ 0 ∧ u8 extra 0 ≠ 0 ∧
  slice extra 33 35 ≠ [0x2E, 0x20]

/-- The directory of the entry can be entered: its first cluster is one of the volume, it is not (unless that is asked
for) a deleted directory whose first cluster is in use again or is not the begin of a directory, and its clusters can be
read; `buf` are their bytes, for a deleted directory perhaps with the next cluster. -/
def Enters (v : Volume) (scanReallocated : Bool) (e : FileEntry) (buf : Bytes) : Prop :=
  IsSubdirectory e ∧
  (∃ allocated, v.table.isAllocated e.firstCluster = .ok (some allocated) ∧
    (scanReallocated = false → e.isDeleted = some true → allocated = false)) ∧
  ∃ whole, v.readChain e.firstCluster none = .ok whole ∧ whole ≠ [] ∧
    (scanReallocated = false → e.isDeleted = some true → slice whole 33 35 = [0x2E, 0x20]) ∧
    ((∃ extra, e.isDeleted = some true ∧ Extends v e.firstCluster whole extra ∧ buf = whole ++ extra) ∨
      (¬ (∃ extra, e.isDeleted = some true ∧ Extends v e.firstCluster whole extra) ∧ buf = whole))

/-- A deleted directory whose first cluster is in use again, although its clusters `buf` still begin with the two
entries that every directory has. -/
def Orphaned (v : Volume) (e : FileEntry) (buf : Bytes) : Prop :=
  IsSubdirectory e ∧ e.isDeleted = some true ∧ v.table.isAllocated e.firstCluster = .ok (some true) ∧
  v.readChain e.firstCluster none = .ok buf ∧ 512 ≤ buf.length ∧ slice buf 0 2 = [0x2E, 0x20] ∧ slice buf 32 35 = [0x2E, 0x2E, 0x20]

/-- The bytes of the root directory: a chain in a FAT32 volume, and in the other ones the place after the tables. -/
def RootData (v : Volume) (buf : Bytes) : Prop :=
  if v.table.type = .fat32 then v.readChain (u32 v.bsbpb.buf 44) none = .ok buf
  else
    let start := v.offset + (u16 v.bsbpb.buf 14 + u16 v.bsbpb.buf 22 * u8 v.bsbpb.buf 16) * u16 v.bsbpb.buf 11
    buf = slice v.object start (start + 32 * u16 v.bsbpb.buf 17)

/-- The directories that can be reached, with their path as a text and as a list of first clusters: the root, and the
directories with an entry in a reached one, except when the path would loop; with `withOrphans` also the orphaned
directories with an entry in a reached one, these have a path of their own. -/
inductive Reached (v : Volume) (codec : Codec) (scanReallocated withOrphans : Bool) : (name : Str) → (path : List Nat) → (buf : Bytes) → Prop where
  | root {buf} : RootData v buf → Reached v codec scanReallocated withOrphans [] (rootPath v) buf
  | sub {name path buf e buf'} : Reached v codec scanReallocated withOrphans name path buf →
      .file e ∈ (listDirectory codec (decide (v.table.type = .fat32)) false buf).items → ¬ Loops path e → Enters v scanReallocated e buf' →
      Reached v codec scanReallocated withOrphans (name ++ Str.ofString "/" ++ e.longName.getD e.shortName) (e.firstCluster :: path) buf'
  | orphan {name path buf e buf'} : withOrphans = true → scanReallocated = false → Reached v codec scanReallocated withOrphans name path buf →
      .file e ∈ (listDirectory codec (decide (v.table.type = .fat32)) false buf).items → Orphaned v e buf' →
      Reached v codec scanReallocated withOrphans (Str.ofString s!"<Orphan directory {e.firstCluster}>") [] buf'

/-- A name after that of its directory, with one separator between them. -/
def joined (directory name : Str) : Str :=
  if directory.getLast? = some '/'.toNat then directory ++ name else directory ++ Str.ofString "/" ++ name

/-- What is reported for an entry of a directory: nothing for a directory that is on the path, else the entry with the
name of the directory before its own ones.  (There is nothing to report for a part of a long name that is empty.) -/
def Reports (name : Str) (path : List Nat) : Item → Item → Prop
  | .file e, r => ¬ Loops path e ∧ r = .file { e with shortName := joined name e.shortName, longName := e.longName.map (joined name) }
  | .orphan (some s), r => r = .orphan (some (joined name s))
  | .orphan none, _ => False

end Verif.Spec.FAT
