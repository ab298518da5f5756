/-
Specifications for walks over an exFAT volume: the same walk with a guard at the door of every directory, and the
directories that can be reached.
-/
import Verif.Spec.ExFATDirectory
import Verif.Model.ExFAT.Parser
namespace Verif.Spec.ExFAT
open Verif.ExFAT Volume

/-- The walk over a directory when `path` has the first clusters of the directories on the way to it (and its
own): there is no result (`none`) when a directory is to be entered that is on the path already.  `limit` is the
greatest number of directories that a path can have; there is no result when that is exceeded. -/
def guarded (v : Volume) (scanReallocated : Bool) : (limit : Nat) → (path : List Nat) → Bytes → Str → List Nat → Seen → Option Walk
  | 0, _ => fun _ _ _ _ => none
  | limit + 1, path =>
    v.oneDirectory scanReallocated fun cluster =>
      if cluster ∈ path then fun _ _ _ _ => none else guarded v scanReallocated limit (cluster :: path)

/-- The greatest number of a cluster that can start a directory. -/
def lastCluster (v : Volume) : Nat := max v.bitmap.lastValidCluster v.br.firstClusterOfRootDirectory

/-- The entry is one for a directory that is on the path already. -/
def Loops (path : List Nat) (e : FileEntry) : Prop := e.isDirectory = true ∧ e.firstCluster ≠ 0 ∧ e.firstCluster ∈ path

/-- The directory of the entry can be entered: its first cluster is one of the volume, it is not (unless that is asked for)
a deleted directory whose first cluster is in use again, and its clusters `buf` can be read. -/
def Enters (v : Volume) (scanReallocated : Bool) (e : FileEntry) (buf : Bytes) : Prop :=
  e.isDirectory = true ∧
  (∃ allocated, v.bitmap.isAllocated e.firstCluster = .ok (some allocated) ∧
    (scanReallocated = false → e.isDeleted = true → allocated = false)) ∧
  v.readChain e.firstCluster (some e.size) e.noFatChain = .ok buf ∧ buf ≠ []

/-- A deleted directory whose first cluster is in use again, although its clusters `buf` still have the entries of a
deleted file at their beginning. -/
def Orphaned (v : Volume) (e : FileEntry) (buf : Bytes) : Prop :=
  e.isDirectory = true ∧ e.isDeleted = true ∧ v.bitmap.isAllocated e.firstCluster = .ok (some true) ∧
  v.readChain e.firstCluster (some e.size) e.noFatChain = .ok buf ∧
  512 ≤ buf.length ∧ u8 buf 0 = 0x05 ∧ u8 buf 32 = 0x40 ∧ u8 buf 64 = 0x41

/-- The directories that can be reached, with their path as a text and as a list of first clusters: the root, and the
directories with an entry in a reached one, except when the path would loop; with `withOrphans` also the orphaned
directories with an entry in a reached one, these have a path of their own. -/
inductive Reached (v : Volume) (scanReallocated withOrphans : Bool) : (name : Str) → (path : List Nat) → (buf : Bytes) → Prop where
  | root {buf} : v.readChain v.br.firstClusterOfRootDirectory none false = .ok buf →
      Reached v scanReallocated withOrphans [] [v.br.firstClusterOfRootDirectory] buf
  | sub {name path buf e buf'} : Reached v scanReallocated withOrphans name path buf →
      .file e ∈ (listDirectory (decide (name = [])) buf).items → ¬ Loops path e → Enters v scanReallocated e buf' →
      Reached v scanReallocated withOrphans (name ++ Str.ofString "/" ++ e.name) (e.firstCluster :: path) buf'
  | orphan {name path buf e buf'} : withOrphans = true → scanReallocated = false → Reached v scanReallocated withOrphans name path buf →
      .file e ∈ (listDirectory (decide (name = [])) buf).items → Orphaned v e buf' →
      Reached v scanReallocated withOrphans (Str.ofString s!"<Orphan directory {e.firstCluster}>") [] buf'

/-- A name after that of its directory, with one separator between them. -/
def joined (directory name : Str) : Str :=
  if directory.getLast? = some '/'.toNat then directory ++ name else directory ++ Str.ofString "/" ++ name

/-- What is reported for an entry of a directory: nothing for a bitmap and for a directory that is on the path, else the
entry with the name of the directory before its own. -/
def Reports (name : Str) (path : List Nat) : Item → Item → Prop
  | .file e, r => ¬ Loops path e ∧ r = .file { e with name := joined name e.name }
  | .orphan s, r => r = .orphan (joined name s)
  | .label s, r => r = .label s
  | .bitmap _ _ _, _ => False

/-- A volume whose damage, if any, is in the places where a walk expects it (the chains and clusters of the directories
can be damaged in any way): the root directory can be read and listed, the bitmap has a bit for every cluster, the
directories that can be reached are whole sectors, and deleted directories have a valid time of modification. -/
structure Tolerable (v : Volume) (scanReallocated : Bool) : Prop where
  root : ∃ buf, v.readChain v.br.firstClusterOfRootDirectory none false = .ok buf ∧ (listDirectory true buf).err = none
  bitmap : v.bitmap.lastValidCluster ≤ 8 * v.bitmap.buf.length + 1
  sectors : ∀ name path buf, Reached v scanReallocated true name path buf → 512 ≤ buf.length ∧ buf.length % 512 = 0
  times : ∀ name path buf e, Reached v scanReallocated true name path buf → .file e ∈ (listDirectory (decide (name = [])) buf).items →
    e.isDirectory = true → e.isDeleted = true → e.mtime ≠ none

end Verif.Spec.ExFAT
