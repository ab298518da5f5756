/-
Model of the program `vsc_mount`: the file system that it provides through llfuse (`VSCFS`, `VSCFS2`) as a machine that takes
requests one after another, and what `--list` prints.
Not modelled: the arguments of the program (`sys.argv`, the usage), opening the image files, llfuse itself (it hands the requests
over and sends the results back; `workers = 1`, so one request is handled at a time), `init` and `destroy`.
-/
import Verif.Model.ShadowCopy.Fill
import Verif.Model.Scripts.Text
namespace Verif.Scripts
open Verif.ShadowCopy

/-! ### The file system -/

/-- The error numbers that are used (errno, vsc_mount:75 and others), and any other exception, which llfuse turns into an error for the caller or which
ends the program. -/
inductive FsError where
  | EBADF
  | ENOENT
  | EROFS
  | exception (e : Exc)
  deriving DecidableEq, Repr

/-- `llfuse.ROOT_INODE` and vsc_mount:13-17. -/
def rootInode : Nat := 1
/-- vsc_mount:13. -/
def handleRootDir : Nat := 1
/-- vsc_mount:14. -/
def handleImageFile : Nat := 2
/-- vsc_mount:16. -/
def inodeImageFile : Nat := rootInode + 1
/-- vsc_mount:17: `b'image.raw'`. -/
def nameImageFile : Bytes := [0x69, 0x6D, 0x61, 0x67, 0x65, 0x2E, 0x72, 0x61, 0x77]

/-- `llfuse.EntryAttributes` (vsc_mount:39-64).  Left out: the identifiers of the user (`os.getuid()`, `os.getgid()`), and what
is 0 or 300 in all cases: the generation, the time-outs, the device and the times. -/
structure EntryAttributes where
  ino : Nat
  mode : Nat
  nlink : Nat
  size : Nat
  blksize : Nat
  blocks : Nat
  deriving DecidableEq, Repr

/-- `VSCFS` or `VSCFS2` (vsc_mount:22-36, 211-229) with a selected shadow copy: the image, the stores and `_debug_fill`. -/
structure Mounted where
  img : Image
  stores : List Store
  fill : Bool

/-- `self._vss.current_volume_size` (vsc_mount:55). -/
def Mounted.currentSize (m : Mounted) : Nat :=
  match m.stores with
  | [] => 0
  | s :: _ => s.currentSize

/-- vsc_mount:38-64 `_construct_attr_for_image_file` (`stat.S_IFREG | 0o644`). -/
def Mounted.imageAttributes (m : Mounted) : EntryAttributes :=
  ⟨inodeImageFile, 0x8000 ||| 420, 1, m.currentSize, 512, (m.currentSize + 512 - 1) / 512⟩

/-- vsc_mount:66-92 `_construct_attr_for_root` (`stat.S_IFDIR | 0o755`). -/
def rootAttributes : EntryAttributes := ⟨rootInode, 0x4000 ||| 493, 1, 0, 512, (0 + 512 - 1) / 512⟩

/-- The requests (the methods of vsc_mount:104-206).  The requests that change something carry only what tells them apart, as the
code looks at none of their arguments. -/
inductive Request where
  | access (inode mode : Nat)
  | getattr (inode : Nat)
  | open (inode flags : Nat)
  | opendir (inode : Nat)
  | lookup (parent : Nat) (name : Bytes)
  | read (handle : Nat) (offset : Int) (size : Nat)
  | readdir (handle offset : Nat)
  | release (handle : Nat)
  | releasedir (handle : Nat)
  | statfs
  | create (parent : Nat) (name : Bytes)
  | fsync (handle : Nat)
  | fsyncdir (handle : Nat)
  | link (inode parent : Nat) (name : Bytes)
  | mkdir (parent : Nat) (name : Bytes)
  | mknod (parent : Nat) (name : Bytes)
  | rename (parentOld : Nat) (nameOld : Bytes) (parentNew : Nat) (nameNew : Bytes)
  | rmdir (parent : Nat) (name : Bytes)
  | setattr (inode : Nat)
  | symlink (parent : Nat) (name target : Bytes)
  | unlink (parent : Nat) (name : Bytes)
  | write (handle offset : Nat) (data : Bytes)
  deriving DecidableEq, Repr

/-- The results of the requests (vsc_mount:38-204). -/
inductive Reply where
  | nothing
  | true
  | attributes (a : EntryAttributes)
  | handle (n : Nat)
  | data (b : Bytes)
  | entries (l : List (Bytes × EntryAttributes × Nat))
  /-- The sizes of blocks and fragments and the six counts (vsc_mount:157-170). -/
  | volume (bsize frsize : Nat) (counts : List Nat)
  deriving DecidableEq, Repr

/-- vsc_mount:136-141 `read`: `seek` of the parser and then its `read`; the state is the position of the parser. -/
def Mounted.read (m : Mounted) (position : Nat) (handle : Nat) (offset : Int) (size : Nat) : Except FsError Reply × Nat :=
  if handle ≠ handleImageFile then (.error .EBADF, position)                                  -- 137
  else
    match m.stores with
    | [] => (.error (.exception .ValueError), position)
    | s :: _ =>
      match seek m.img s position offset 0 with                                               -- 140
      | .error e => (.error (.exception e), position)
      | .ok target =>
        match readFill m.img m.stores m.fill target (some size) with                          -- 141
        | (.error e, position) => (.error (.exception e), position)
        | (.ok d, position) => (.ok (.data d), position)

/-- vsc_mount:104-206: a request in a state gives a result and the next state. -/
def Mounted.step (m : Mounted) (position : Nat) : Request → Except FsError Reply × Nat
  | .access _ _ => (.ok .true, position)                                                      -- 105
  | .getattr inode =>
    if inode = inodeImageFile then (.ok (.attributes m.imageAttributes), position)            -- 109
    else if inode = rootInode then (.ok (.attributes rootAttributes), position)               -- 111
    else (.error .EBADF, position)                                                            -- 113
  | .open inode flags =>
    if flags &&& (1 ||| 2 ||| 0x400) > 0 then (.error .EROFS, position)                       -- 116-117
    else if inode = inodeImageFile then (.ok (.handle handleImageFile), position)             -- 120
    else (.error .ENOENT, position)                                                           -- 122
  | .opendir inode =>
    if inode = rootInode then (.ok (.handle handleRootDir), position)                         -- 126
    else (.error .ENOENT, position)                                                           -- 128
  | .lookup parent name =>
    if parent = rootInode ∧ name = nameImageFile then (.ok (.attributes m.imageAttributes), position) -- 132
    else (.error .ENOENT, position)                                                           -- 134
  | .read handle offset size => m.read position handle offset size
  | .readdir handle offset =>
    if handle ≠ handleRootDir then (.error .EBADF, position)                                  -- 145
    else if offset = 0 then (.ok (.entries [(nameImageFile, m.imageAttributes, 1)]), position) -- 148
    else (.ok (.entries []), position)
  | .release _ => (.ok .nothing, position)                                                    -- 151
  | .releasedir _ => (.ok .nothing, position)                                                 -- 154
  | .statfs => (.ok (.volume 512 512 [0, 0, 0, 0, 0, 0]), position)                           -- 156-170
  | .create _ _ => (.error .EROFS, position)                                                  -- 173
  | .fsync _ => (.error .EROFS, position)                                                     -- 176
  | .fsyncdir _ => (.error .EROFS, position)                                                  -- 179
  | .link _ _ _ => (.error .EROFS, position)                                                  -- 182
  | .mkdir _ _ => (.error .EROFS, position)                                                   -- 185
  | .mknod _ _ => (.error .EROFS, position)                                                   -- 188
  | .rename _ _ _ _ => (.error .EROFS, position)                                              -- 191
  | .rmdir _ _ => (.error .EROFS, position)                                                   -- 194
  | .setattr _ => (.error .EROFS, position)                                                   -- 197
  | .symlink _ _ _ => (.error .EROFS, position)                                               -- 200
  | .unlink _ _ => (.error .EROFS, position)                                                  -- 203
  | .write _ _ _ => (.error .EROFS, position)                                                 -- 206

/-- The results of the requests of a history, in order (`llfuse.main(workers = 1)`, vsc_mount:293). -/
def Mounted.run (m : Mounted) : Nat → List Request → List (Except FsError Reply)
  | _, [] => []
  | position, r :: rest => (m.step position r).1 :: m.run (m.step position r).2 rest

/-- vsc_mount:260-298 and 300-336: mounting.  `storage` is the second image and its offset for `--mount-two`, which does not know
the option; the stack position is compared with unsigned numbers, so a negative one matches nothing (it is not modelled).  The
position of a newly selected shadow copy is 0 (dfir_ntfs/ShadowCopy.py:802). -/
def mount (volume : Bytes) (offset : Nat) (storage : Option (Bytes × Nat)) (altFill : Bool) (position fuel : Nat) : Option (Except Exc Mounted) :=
  let img : Image := ⟨volume, offset, none, storage⟩
  match select img fuel (.position position) with
  | none => none
  | some (.error e) => some (.error e)
  | some (.ok stores) => some (.ok ⟨img, stores, altFill && storage.isNone⟩)

/-! ### The list -/

/-- `str` of a `datetime` (vsc_mount:365): the fraction is left out when it is zero. -/
def datetimeStr (t : Nat) : Str :=
  let d := ord2ymd (t / 86400000000)
  fixedDec 4 d.year ++ [0x2D] ++ fixedDec 2 d.month ++ [0x2D] ++ fixedDec 2 d.day ++ [0x20] ++
    fixedDec 2 (t / 3600000000 % 24) ++ [0x3A] ++ fixedDec 2 (t / 60000000 % 60) ++ [0x3A] ++
    fixedDec 2 (t / 1000000 % 60) ++ (if t % 1000000 = 0 then [] else [0x2E] ++ fixedDec 6 (t % 1000000))

/-- vsc_mount:365: the line of a shadow copy. -/
def shadowLine (i : Information) : Str :=
  Str.ofString "  Stack position: " ++ decimal i.stackPosition ++ Str.ofString ", timestamp (UTC): " ++
    (match i.timestamp with | none => Str.ofString "None" | some t => datetimeStr (epoch1601 + t))

/-- vsc_mount:356-365: the lines that `--list` prints, and the exception that ends the program, if any.  An exception that is not
one of the two that are caught leaves the program with no output. -/
def listShadows (volume : Bytes) (offset fuel : Nat) : Option (Gen Str) :=
  match openVolume ⟨volume, offset, none, none⟩ fuel with
  | none => none
  | some (.error e) =>
    if e = .ShadowCopiesDisabledException then some ⟨[Str.ofString "Shadow copies are disabled"], none⟩      -- 359
    else if e = .InvalidVolume then some ⟨[Str.ofString "Not a valid volume"], none⟩                         -- 361
    else some ⟨[], some e⟩
  | some (.ok o) => some (Gen.cons (Str.ofString "Shadow copies are enabled")                                -- 363
      ⟨(shadows o.controlBlocks).items.map shadowLine, (shadows o.controlBlocks).err⟩)

end Verif.Scripts
