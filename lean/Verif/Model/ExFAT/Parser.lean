/-
Model of dfir_ntfs/addons/exFAT.py:1050-1298: `FileSystemParser`.
-/
import Verif.Model.ExFAT.BootRegion
import Verif.Model.ExFAT.Table
import Verif.Model.ExFAT.Directory
import Verif.Model.FAT.Parser
namespace Verif.ExFAT
open Verif.FAT (DateTime slots)

/-- dfir_ntfs/addons/exFAT.py:1083-1136: A `FileSystemParser` object, without the bitmap. -/
structure Heap where
  object : Bytes
  offset : Nat
  size : Option Nat
  table : Table
  clusterSize : Nat
  dataAreaOffset : Nat
  lastValidCluster : Nat

namespace Heap

/-- dfir_ntfs/addons/exFAT.py:1155-1165: the loop that counts up the clusters of a contiguous file.  The remaining
size is a negative number in the code where it is zero here, the loop ends then.  The bound `fuel` on the number of
rounds is for Lean; `none` means that it was reached. -/
def contiguousLoop (v : Heap) : Nat → (curr remaining : Nat) → Option (List Nat)
  | 0, _, _ => none
  | fuel + 1, curr, remaining =>
    if remaining = 0 then some []
    else if curr > v.lastValidCluster then some []                                        -- 1159
    else (v.contiguousLoop fuel (curr + 1) (remaining - v.clusterSize)).map (curr :: ·)

/-- dfir_ntfs/addons/exFAT.py:1149-1165: the clusters of a contiguous file.  The theorem `C68_contiguous` says that
the bound that is used here is never reached. -/
def contiguous (v : Heap) (firstCluster fileSize : Nat) : List Nat :=
  if fileSize > 0 ∧ firstCluster ≥ 2 then                                                 -- 1151
    (v.contiguousLoop (v.lastValidCluster + 2) firstCluster fileSize).getD []
  else []

/-- dfir_ntfs/addons/exFAT.py:1177-1195: the bytes of one item of a chain. -/
def readCluster (v : Heap) : Option Nat → Except Exc Bytes
  | none => .ok (List.replicate v.clusterSize 0)                                          -- 1177
  | some cluster =>
    let clusterOffset := v.dataAreaOffset + (cluster - 2) * v.clusterSize
    if v.offset + clusterOffset ≥ 2 ^ 63 then .error .OverflowError                       -- 1186
    else if v.size.any (clusterOffset + v.clusterSize > ·) then .error .ValueError        -- 1187
    else
      match seekRead v.object (v.offset + clusterOffset) v.clusterSize with
      | .error e => .error e
      | .ok buf => if buf.length ≠ v.clusterSize then .error .ValueError else .ok buf     -- 1191

/-- dfir_ntfs/addons/exFAT.py:1173-1195: the loop over the clusters, `readBytes` bytes were read. -/
def readClusters (v : Heap) (fileSize : Option Nat) : List (Option Nat) → Nat → Except Exc Bytes
  | [], _ => .ok []
  | cluster :: rest, readBytes =>
    if fileSize.any (readBytes ≥ ·) then .ok []                                           -- 1174
    else
      match v.readCluster cluster with
      | .error e => .error e
      | .ok buf =>
        match v.readClusters fileSize rest (readBytes + v.clusterSize) with
        | .error e => .error e
        | .ok more => .ok (buf ++ more)

/-- dfir_ntfs/addons/exFAT.py:1143-1165: the clusters to read. -/
def clustersOf (v : Heap) (firstCluster : Nat) (fileSize : Option Nat) (noFatChain : Bool) : Except Exc (List (Option Nat)) :=
  if ¬ noFatChain then v.table.chain firstCluster
  else
    match fileSize with
    | none => .error .ValueError                                                          -- 1146
    | some n => .ok ((v.contiguous firstCluster n).map some)

/-- dfir_ntfs/addons/exFAT.py:1138-1201 `FileSystemParser.read_chain`. -/
def readChain (v : Heap) (firstCluster : Nat) (fileSize : Option Nat) (noFatChain : Bool) : Except Exc Bytes :=
  match v.clustersOf firstCluster fileSize noFatChain with
  | .error e => .error e
  | .ok clusters =>
    match v.readClusters fileSize clusters 0 with
    | .error e => .error e
    | .ok buf => match fileSize with | none => .ok buf | some n => .ok (buf.take n)       -- 1201

end Heap

/-- dfir_ntfs/addons/exFAT.py:1083-1136: A `FileSystemParser` object. -/
structure Volume extends Heap where
  br : BR
  bitmap : Bitmap
  backupUsed : Bool

/-- dfir_ntfs/addons/exFAT.py:1084-1087 `try_br`. -/
def tryBR (object : Bytes) (offset brOffset : Nat) : Except Exc BR :=
  match seekRead object (offset + brOffset) (12 * 4096) with
  | .error e => .error e
  | .ok buf => openBR buf

/-- `except (BootRegionException, NotImplementedError)` (dfir_ntfs/addons/exFAT.py:1100). -/
def caughtBR (e : Exc) : Bool := decide (e ∈ [.BootRegionException, .BootRegionChecksumException, .NotImplementedError])

/-- dfir_ntfs/addons/exFAT.py:1097-1103: the loop over the places of a boot region; the region and its place. -/
def chooseBR (object : Bytes) (offset : Nat) : List Nat → Except Exc (Option (BR × Nat))
  | [] => .ok none
  | brOffset :: rest =>
    match tryBR object offset brOffset with
    | .ok br => .ok (some (br, brOffset))
    | .error e => if caughtBR e then chooseBR object offset rest else .error e

/-- dfir_ntfs/addons/exFAT.py:1097-1107: the boot region, and whether it is a backup. -/
def selectBR (object : Bytes) (offset : Nat) : Except Exc (BR × Bool) := do
  match ← chooseBR object offset [0, 12 * 512, 12 * 4096] with
  | none => throw .BootRegionException
  | some (br, brOffset) =>
    if brOffset = 12 * 512 ∧ (← br.bytesPerSector) ≠ 512 then throw .BootRegionException
    if brOffset = 12 * 4096 ∧ (← br.bytesPerSector) ≠ 4096 then throw .BootRegionException
    return (br, decide (brOffset ≠ 0))                                                    -- 1109

/-- dfir_ntfs/addons/exFAT.py:1111-1124: the places of the table and of the clusters. -/
def openHeap (object : Bytes) (offset : Nat) (size : Option Nat) (br : BR) : Except Exc Heap := do
  let sectorSize ← br.bytesPerSector
  let clusterSize := sectorSize * (← br.sectorsPerCluster)
  let fatSize := br.fatLength * sectorSize
  let fatOffset := br.fatOffset * sectorSize + (if br.activeFat then fatSize else 0)      -- 1120
  let table ← openTable object (offset + fatOffset) fatSize (br.clusterCount + 1)
  return ⟨object, offset, size, table, clusterSize, br.clusterHeapOffset * sectorSize, br.clusterCount + 1⟩

/-- dfir_ntfs/addons/exFAT.py:1130-1133: the first cluster of the first bitmap of the active FAT among some
entries. -/
def firstBitmap (activeFat : Bool) : List Item → Option Nat
  | [] => none
  | .bitmap bitmapId firstCluster _ :: rest => if bitmapId = activeFat.toNat then some firstCluster else firstBitmap activeFat rest
  | _ :: rest => firstBitmap activeFat rest

/-- dfir_ntfs/addons/exFAT.py:1126-1136: the bitmap.  The entries are generated one by one: an exception after the
bitmap was found does not occur. -/
def findBitmap (heap : Heap) (br : BR) : Except Exc Bitmap := do
  let rootBuf ← heap.readChain br.firstClusterOfRootDirectory none false
  openDirectory rootBuf
  match firstBitmap br.activeFat (entries true rootBuf).items with
  | some firstCluster => return ⟨← heap.readChain firstCluster none false, heap.lastValidCluster⟩
  | none =>
    match (entries true rootBuf).err with
    | some e => throw e
    | none => throw .FileSystemException

/-- dfir_ntfs/addons/exFAT.py:1083-1136 `FileSystemParser.__init__`. -/
def openVolume (object : Bytes) (offset : Nat) (size : Option Nat) : Except Exc Volume := do
  if size.any (· < 1024 * 1024) then throw .ValueError                                    -- 1094
  let (br, backupUsed) ← selectBR object offset
  let heap ← openHeap object offset size br
  let bitmap ← findBitmap heap br
  return { heap with br, bitmap, backupUsed }

namespace Volume

/-- `except (FileSystemException, ValueError)` (dfir_ntfs/addons/exFAT.py:1259, 1291). -/
def caught (e : Exc) : Bool :=
  decide (e ∈ [.FileSystemException, .BootRegionException, .BootRegionChecksumException, .FileAllocationTableException,
    .DirectoryEntriesException, .ValueError])

/-- What is kept of a deleted directory with a first cluster that is in use (dfir_ntfs/addons/exFAT.py:1247):
the first cluster, `mtime`, the size and the flag. -/
structure Reallocated where
  firstCluster : Nat
  mtime : Option DateTime
  size : Nat
  noFatChain : Bool
  deriving DecidableEq, Repr

/-- dfir_ntfs/addons/exFAT.py:1272-1274: the dictionary, in the order of the insertions (its keys are the elements
of the first set), and the other set. -/
structure Seen where
  reallocated : List Reallocated
  visited : List Nat
  deriving DecidableEq, Repr

/-- dfir_ntfs/addons/exFAT.py:1203-1298: What a step of the walk yields, and the sets after it. -/
abbrev Walk := Gen Item × Seen

/-- The order of two naive `datetime`s, for `mtime > ts` (dfir_ntfs/addons/exFAT.py:1250). -/
def instant (t : DateTime) : Nat :=
  (((((t.date.year * 13 + t.date.month) * 32 + t.date.day) * 24 + t.time.hour) * 60 + t.time.minute) * 60 + t.time.second) * 1000000 + t.microsecond

/-- dfir_ntfs/addons/exFAT.py:1246-1251: the dictionary after a deleted directory; comparing with `None` is a
TypeError. -/
def remember (e : FileEntry) : List Reallocated → Except Exc (List Reallocated)
  | [] => .ok [⟨e.firstCluster, e.mtime, e.size, e.noFatChain⟩]
  | r :: rest =>
    if r.firstCluster = e.firstCluster then
      match e.mtime, r.mtime with
      | some m, some ts => .ok ((if instant m > instant ts then ⟨e.firstCluster, e.mtime, e.size, e.noFatChain⟩ else r) :: rest)
      | _, _ => .error .TypeError
    else
      match remember e rest with
      | .error x => .error x
      | .ok rest => .ok (r :: rest)

/-- dfir_ntfs/addons/exFAT.py:1231-1263: the buffer of a subdirectory; `none` is one of the `continue`s, or a file
that is not a directory. -/
def subdirectory (v : Volume) (scanReallocated : Bool) (e : FileEntry) (seen : Seen) : Except Exc (Option Bytes) × Seen :=
  match v.bitmap.isAllocated e.firstCluster with
  | .error x => (.error x, seen)
  | .ok none => (.ok none, seen)                                                          -- 1233
  | .ok (some allocated) =>
    if e.isDirectory = false then (.ok none, seen)                                        -- 1237
    else if scanReallocated = false ∧ e.isDeleted = true ∧ allocated = true then          -- 1238
      match remember e seen.reallocated with
      | .error x => (.error x, seen)
      | .ok reallocated => (.ok none, { seen with reallocated })
    else
      let seen := { seen with visited := seen.visited ++ [e.firstCluster] }               -- 1255
      match v.readChain e.firstCluster (some e.size) e.noFatChain with
      | .error x => (if caught x then .ok none else .error x, seen)                       -- 1259
      | .ok buf => if buf.length = 0 then (.ok none, seen) else (.ok (some buf), seen)    -- 1262

/-- dfir_ntfs/addons/exFAT.py:1218-1219: the previous directory is no longer on the path. -/
def leave (prev : Option Nat) (stack : List Nat) : List Nat :=
  match prev with
  | none => stack
  | some p => stack.erase p

/-- dfir_ntfs/addons/exFAT.py:1211-1269: the loop over the entries of a directory.  `stack` is the set and `prev` is
`prev_first_cluster`; `down` is the recursive call, its first argument is the first cluster of the directory (the
code does not pass it, `processBuf` makes no use of it; it is there to talk about the calls). -/
def processEntries (v : Volume) (scanReallocated : Bool) (down : Nat → Bytes → Str → List Nat → Seen → Option Walk) (parentPath : Str) :
    List Item → List Nat → Option Nat → Seen → Option Walk
  | [], _, _, seen => some (.done, seen)
  | .label name :: rest, stack, prev, seen =>
    match processEntries v scanReallocated down parentPath rest stack prev seen with
    | none => none
    | some (g, seen) => some (g.cons (.label name), seen)                                 -- 1215
  | .bitmap _ _ _ :: rest, stack, prev, seen => processEntries v scanReallocated down parentPath rest stack prev seen
  | .orphan name :: rest, stack, prev, seen =>
    match processEntries v scanReallocated down parentPath rest stack prev seen with
    | none => none
    | some (g, seen) => some (g.cons (expandPath parentPath (.orphan name)), seen)        -- 1269
  | .file e :: rest, stack, prev, seen =>
    let stack := leave prev stack                                                         -- 1218
    let guarded := e.isDirectory && decide (e.firstCluster ≠ 0)                           -- 1221
    if guarded = true ∧ e.firstCluster ∈ stack then
      processEntries v scanReallocated down parentPath rest stack prev seen               -- 1224
    else
      let stack := if guarded then e.firstCluster :: stack else stack                     -- 1226
      let prev := if guarded then some e.firstCluster else prev
      let item := expandPath parentPath (.file e)                                         -- 1229
      match v.subdirectory scanReallocated e seen with
      | (.error x, seen) => some ((Gen.fail x).cons item, seen)
      | (.ok none, seen) =>
        match processEntries v scanReallocated down parentPath rest stack prev seen with
        | none => none
        | some (g, seen) => some (g.cons item, seen)
      | (.ok (some buf), seen) =>
        match down e.firstCluster buf (parentPath ++ [0x2F] ++ e.name) stack seen with     -- 1265
        | none => none
        | some (⟨items, some x⟩, seen) => some (⟨item :: items, some x⟩, seen)
        | some (⟨items, none⟩, seen) =>
          match processEntries v scanReallocated down parentPath rest stack prev seen with
          | none => none
          | some (g, seen) => some (⟨item :: (items ++ g.items), g.err⟩, seen)

/-- dfir_ntfs/addons/exFAT.py:1208-1269 `process_buf`; `down` is the recursive call. -/
def oneDirectory (v : Volume) (scanReallocated : Bool) (down : Nat → Bytes → Str → List Nat → Seen → Option Walk)
    (buf : Bytes) (parentPath : Str) (stack : List Nat) (seen : Seen) : Option Walk :=
  match openDirectory buf with
  | .error e => some (.fail e, seen)
  | .ok () =>
    let listing := entries (decide (parentPath.length = 0)) buf                           -- 1209
    match v.processEntries scanReallocated down parentPath listing.items stack none seen with
    | none => none
    | some (⟨items, none⟩, seen) => some (⟨items, listing.err⟩, seen)
    | some (g, seen) => some (g, seen)

/-- dfir_ntfs/addons/exFAT.py:1208-1269 `process_buf`.  The bound `fuel` on the depth of the recursion is for Lean;
`none` means that it was reached. -/
def processBuf (v : Volume) (scanReallocated : Bool) : Nat → Bytes → Str → List Nat → Seen → Option Walk
  | 0 => fun _ _ _ _ => none
  | fuel + 1 => v.oneDirectory scanReallocated fun _ => v.processBuf scanReallocated fuel

/-- '<Orphan directory {}>' (dfir_ntfs/addons/exFAT.py:1297). -/
def orphanPath (n : Nat) : Str := ("<Orphan directory ".toList.map Char.toNat) ++ FAT.Volume.decimal n ++ [0x3E]

/-- dfir_ntfs/addons/exFAT.py:1286-1298: the orphan directories, in the order in which the set gives them;
`process` is `process_buf`.  (Every number of the set is a key of the dictionary.) -/
def orphans (v : Volume) (process : Bytes → Str → List Nat → Seen → Option Walk) : List Nat → Seen → Option Walk
  | [], seen => some (.done, seen)
  | cluster :: rest, seen =>
    match seen.reallocated.find? (·.firstCluster = cluster) with                          -- 1287
    | none => some (.fail .KeyError, seen)
    | some r =>
      match v.readChain cluster (some r.size) r.noFatChain with
      | .error e => if caught e then v.orphans process rest seen else some (.fail e, seen) -- 1291
      | .ok buf =>
        if buf.length < 512 ∨ u8 buf 0 ≠ 0x05 ∨ u8 buf 32 ≠ 0x40 ∨ u8 buf 64 ≠ 0x41 then v.orphans process rest seen -- 1294
        else
          match process buf (orphanPath cluster) [] seen with                             -- 1297
          | none => none
          | some (⟨items, some e⟩, seen) => some (⟨items, some e⟩, seen)
          | some (⟨items, none⟩, seen) =>
            match v.orphans process rest seen with
            | none => none
            | some (g, seen) => some (⟨items ++ g.items, g.err⟩, seen)

/-- dfir_ntfs/addons/exFAT.py:1203-1298 `FileSystemParser.walk`; `processRoot` and `processOrphan` are
`process_buf` for the root directory and for the orphan directories.  `order` stands for the order in which Python
iterates over a set (any permutation of its elements). -/
def walkWith (v : Volume) (processRoot processOrphan : Bytes → Str → List Nat → Seen → Option Walk) (order : List Nat → List Nat) : Option (Gen Item) :=
  let first := v.br.firstClusterOfRootDirectory
  match v.readChain first none false with
  | .error e => some (.fail e)
  | .ok buf =>
    match processRoot buf [] [first] ⟨[], []⟩ with
    | none => none
    | some (⟨items, some e⟩, _) => some ⟨items, some e⟩
    | some (⟨items, none⟩, seen) =>
      let orphanDirectories := (seen.reallocated.map (·.firstCluster)).filter (· ∉ seen.visited) -- 1284
      match v.orphans processOrphan (order orphanDirectories) seen with
      | none => none
      | some (g, _) => some ⟨items ++ g.items, g.err⟩

/-- dfir_ntfs/addons/exFAT.py:1203-1298 `FileSystemParser.walk`, with a bound on the depth of the recursion. -/
def walk (v : Volume) (scanReallocated : Bool) (order : List Nat → List Nat) (fuel : Nat) : Option (Gen Item) :=
  v.walkWith (v.processBuf scanReallocated fuel) (v.processBuf scanReallocated fuel) order

end Volume
end Verif.ExFAT
