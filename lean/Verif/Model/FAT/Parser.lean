/-
Model of dfir_ntfs/addons/FAT.py:1453-1694: `FileSystemParser`.
-/
import Verif.Model.FAT.BootSector
import Verif.Model.FAT.Table
import Verif.Model.FAT.Directory
namespace Verif.FAT

/-- dfir_ntfs/addons/FAT.py:1480-1510: A `FileSystemParser` object. -/
structure Volume where
  object : Bytes
  offset : Nat
  size : Option Nat
  bsbpb : BSBPB
  table : Table
  clusterSize : Nat
  dataAreaOffset : Nat

/-- dfir_ntfs/addons/FAT.py:1492-1499: the type of the file system. -/
def fatType (b : BSBPB) : Except Exc FatType := do
  if ← isFileSystem32 b then return .fat32
  else if ← isFileSystem16 b then return .fat16
  else if ← isFileSystem12 b then return .fat12
  else throw .ValueError

/-- dfir_ntfs/addons/FAT.py:1506-1510: the offset of the data area.  (For FAT32, the size of the table is not
`None`: the type is FAT32 only when the boot sector is taken for one of FAT32.) -/
def dataArea (b : BSBPB) (type : FatType) : Except Exc Nat := do
  if type = .fat32 then
    let rsvd ← b.rsvdSecCnt
    let fats ← b.numFats
    match ← b.fatSz32 with
    | none => throw .TypeError
    | some fatsz32 => return (rsvd + fats * fatsz32) * (← b.bytsPerSec)
  else
    let root := ((← b.rootEntCnt) * 32 + (← b.bytsPerSec) - 1) / (← b.bytsPerSec)
    return ((← b.rsvdSecCnt) + (← b.numFats) * (← b.fatSz16) + root) * (← b.bytsPerSec)

/-- dfir_ntfs/addons/FAT.py:1480-1510 `FileSystemParser.__init__`. -/
def openVolume (object : Bytes) (offset : Nat) (size : Option Nat) : Except Exc Volume := do
  if size.any (· < 4096) then throw .ValueError
  let bsbpb ← openBSBPB (← seekRead object offset 512) false
  let type ← fatType bsbpb
  let clusterSize := (← bsbpb.bytsPerSec) * (← bsbpb.secPerClus)
  let (fatOffset, fatSize, lastValid) ← fatOffsetAndSize bsbpb
  let table ← openTable object (offset + fatOffset) fatSize lastValid type
  let dataAreaOffset ← dataArea bsbpb type
  return ⟨object, offset, size, bsbpb, table, clusterSize, dataAreaOffset⟩

namespace Volume

/-- dfir_ntfs/addons/FAT.py:1529-1546: the bytes of one item of a chain. -/
def readCluster (v : Volume) : Option Nat → Except Exc Bytes
  | none => .ok (List.replicate v.clusterSize 0)                                          -- 1529
  | some cluster =>
    let clusterOffset := v.dataAreaOffset + (cluster - 2) * v.clusterSize
    if v.offset + clusterOffset ≥ 2 ^ 63 then .error .OverflowError                       -- 1538
    else if v.size.any (clusterOffset + v.clusterSize > ·) then .error .ValueError        -- 1539
    else
      match seekRead v.object (v.offset + clusterOffset) v.clusterSize with
      | .error e => .error e
      | .ok buf => if buf.length ≠ v.clusterSize then .error .ValueError else .ok buf     -- 1543

/-- dfir_ntfs/addons/FAT.py:1525-1547: the loop over the clusters, `readBytes` bytes were read. -/
def readClusters (v : Volume) (fileSize : Option Nat) : List (Option Nat) → Nat → Except Exc Bytes
  | [], _ => .ok []
  | cluster :: rest, readBytes =>
    if fileSize.any (readBytes ≥ ·) then .ok []                                           -- 1526
    else
      match v.readCluster cluster with
      | .error e => .error e
      | .ok buf =>
        match v.readClusters fileSize rest (readBytes + v.clusterSize) with
        | .error e => .error e
        | .ok more => .ok (buf ++ more)

/-- dfir_ntfs/addons/FAT.py:1512-1553 `FileSystemParser.read_chain`. -/
def readChain (v : Volume) (firstCluster : Nat) (fileSize : Option Nat) : Except Exc Bytes :=
  match v.table.chain firstCluster with
  | .error e => .error e
  | .ok clusters =>
    match v.readClusters fileSize clusters 0 with
    | .error e => .error e
    | .ok buf => match fileSize with | none => .ok buf | some n => .ok (buf.take n)       -- 1549

/-- dfir_ntfs/addons/FAT.py:1560-1567 `bufs_match`; the first buffer has at least 512 bytes and the second one
has some. -/
def bufsMatch (buf1 buf2 : Bytes) : Bool :=
  if u8 buf1 (buf1.length - 96) = 0 ∨ u8 buf1 (buf1.length - 64) = 0 ∨ u8 buf1 (buf1.length - 32) = 0 ∨ u8 buf2 0 = 0 then false
  else if slice buf2 33 35 = [0x2E, 0x20] then false
  else true

/-- `except (FileSystemException, ValueError)` (dfir_ntfs/addons/FAT.py:1617, 1644, 1687). -/
def caught (e : Exc) : Bool :=
  decide (e ∈ [.FileSystemException, .BootSectorException, .FileSystemInfoException, .FileAllocationTableException,
    .DirectoryEntriesException, .ValueError])

/-- dfir_ntfs/addons/FAT.py:1654-1655: the two sets, in the order of the additions. -/
structure Seen where
  reallocated : List Nat
  visited : List Nat
  deriving DecidableEq, Repr

/-- dfir_ntfs/addons/FAT.py:1555-1694: What a step of the walk yields, and the sets after it. -/
abbrev Walk := Gen Item × Seen

/-- dfir_ntfs/addons/FAT.py:1641-1648: add the next cluster of a deleted directory. -/
def extend (v : Volume) (newBuf : Bytes) (nextCluster : Nat) : Except Exc Bytes :=
  match v.readChain nextCluster none with
  | .error e => if caught e then .ok newBuf else .error e
  | .ok extra => .ok (if bufsMatch newBuf extra then newBuf ++ extra else newBuf)

/-- dfir_ntfs/addons/FAT.py:1627-1648: the buffer of a directory, with one more cluster for a deleted one. -/
def withExtra (v : Volume) (deleted : Bool) (firstCluster : Nat) (newBuf : Bytes) : Except Exc Bytes :=
  if ¬ deleted then .ok newBuf
  else
    match v.table.chain firstCluster with
    | .error e => .error e
    | .ok chain =>
      if chain.length ≠ 1 then .ok newBuf
      else
        match v.table.isAllocated (firstCluster + 1) with
        | .error e => .error e
        | .ok (some false) => v.extend newBuf (firstCluster + 1)
        | .ok _ => .ok newBuf

/-- dfir_ntfs/addons/FAT.py:1602-1648: the buffer of a subdirectory; `none` is one of the `continue`s. -/
def subdirectory (v : Volume) (scanReallocated : Bool) (e : FileEntry) (seen : Seen) : Except Exc (Option Bytes) × Seen :=
  let deleted := decide (e.isDeleted = some true)
  match v.table.isAllocated e.firstCluster with
  | .error x => (.error x, seen)
  | .ok none => (.ok none, seen)                                                          -- 1604
  | .ok (some allocated) =>
    if scanReallocated = false ∧ deleted = true ∧ allocated = true then                   -- 1608
      (.ok none, { seen with reallocated := seen.reallocated ++ [e.firstCluster] })
    else
      let seen := { seen with visited := seen.visited ++ [e.firstCluster] }               -- 1613
      match v.readChain e.firstCluster none with
      | .error x => (if caught x then .ok none else .error x, seen)                       -- 1617
      | .ok newBuf =>
        if newBuf.length = 0 then (.ok none, seen)                                        -- 1620
        else if scanReallocated = false ∧ deleted = true ∧ slice newBuf 33 35 ≠ [0x2E, 0x20] then (.ok none, seen) -- 1623
        else
          match v.withExtra deleted e.firstCluster newBuf with
          | .error x => (.error x, seen)
          | .ok buf => (.ok (some buf), seen)

/-- `dir_entry.is_directory and dir_entry.short_name not in [ '.', '..' ]` (dfir_ntfs/addons/FAT.py:1582, 1596). -/
def entered (e : FileEntry) : Bool := e.isDirectory && !decide (e.shortName ∈ [[0x2E], [0x2E, 0x2E]])

/-- dfir_ntfs/addons/FAT.py:1597-1600: the preferred name. -/
def preferredName (e : FileEntry) : Str := e.longName.getD e.shortName

/-- dfir_ntfs/addons/FAT.py:1579-1580: the previous directory is no longer on the path. -/
def leave (prev : Option Nat) (stack : List Nat) : List Nat :=
  match prev with
  | none => stack
  | some p => stack.erase p

/-- dfir_ntfs/addons/FAT.py:1574-1651: the loop over the entries of a directory.  `stack` is the set and
`prev` is `prev_first_cluster`; `down` is the recursive call, its first argument is the first cluster of the
directory (the code does not pass it, `processBuf` makes no use of it; it is there to talk about the calls). -/
def processEntries (v : Volume) (scanReallocated : Bool) (down : Nat → Bytes → Str → List Nat → Seen → Option Walk) (parentPath : Str) :
    List Item → List Nat → Option Nat → Seen → Option Walk
  | [], _, _, seen => some (.done, seen)
  | .orphan name :: rest, stack, prev, seen =>
    match expandPath parentPath (.orphan name) with                                       -- 1576
    | .error e => some (.fail e, seen)
    | .ok item =>
      match processEntries v scanReallocated down parentPath rest stack prev seen with
      | none => none
      | some (g, seen) => some (g.cons item, seen)
  | .file e :: rest, stack, prev, seen =>
    let stack := leave prev stack                                                         -- 1579
    let guarded := entered e && decide (e.firstCluster ≠ 0)                               -- 1582
    if guarded = true ∧ e.firstCluster ∈ stack then
      processEntries v scanReallocated down parentPath rest stack prev seen               -- 1585
    else
      let stack := if guarded then e.firstCluster :: stack else stack                     -- 1587
      let prev := if guarded then some e.firstCluster else prev
      match expandPath parentPath (.file e) with                                          -- 1594
      | .error x => some (.fail x, seen)
      | .ok item =>
        if ¬ entered e then
          match processEntries v scanReallocated down parentPath rest stack prev seen with
          | none => none
          | some (g, seen) => some (g.cons item, seen)
        else
          match v.subdirectory scanReallocated e seen with
          | (.error x, seen) => some ((Gen.fail x).cons item, seen)
          | (.ok none, seen) =>
            match processEntries v scanReallocated down parentPath rest stack prev seen with
            | none => none
            | some (g, seen) => some (g.cons item, seen)
          | (.ok (some buf), seen) =>
            match down e.firstCluster buf (parentPath ++ [0x2F] ++ preferredName e) stack seen with      -- 1650
            | none => none
            | some (⟨items, some x⟩, seen) => some (⟨item :: items, some x⟩, seen)
            | some (⟨items, none⟩, seen) =>
              match processEntries v scanReallocated down parentPath rest stack prev seen with
              | none => none
              | some (g, seen) => some (⟨item :: (items ++ g.items), g.err⟩, seen)

/-- dfir_ntfs/addons/FAT.py:1569-1651 `process_buf`; `down` is the recursive call. -/
def oneDirectory (v : Volume) (codec : Codec) (scanReallocated : Bool) (down : Nat → Bytes → Str → List Nat → Seen → Option Walk)
    (buf : Bytes) (parentPath : Str) (stack : List Nat) (seen : Seen) : Option Walk :=
  match openDirectory buf with
  | .error e => some (.fail e, seen)
  | .ok () =>
    let listing := entries codec (v.table.type = .fat32) false buf
    match v.processEntries scanReallocated down parentPath listing.items stack none seen with
    | none => none
    | some (⟨items, none⟩, seen) => some (⟨items, listing.err⟩, seen)
    | some (g, seen) => some (g, seen)

/-- dfir_ntfs/addons/FAT.py:1569-1651 `process_buf`.  The bound `fuel` on the depth of the recursion is for
Lean; `none` means that it was reached. -/
def processBuf (v : Volume) (codec : Codec) (scanReallocated : Bool) : Nat → Bytes → Str → List Nat → Seen → Option Walk
  | 0 => fun _ _ _ _ => none
  | fuel + 1 => v.oneDirectory codec scanReallocated fun _ => v.processBuf codec scanReallocated fuel

/-- dfir_ntfs/addons/FAT.py:1657-1676: the buffer of the root directory, the stack and the visited set. -/
def root (v : Volume) : Except Exc (Bytes × List Nat) := do
  if v.table.type = .fat32 then
    let curr ← v.bsbpb.rootClus
    let buf ← v.readChain curr none
    return (buf, [curr])
  else
    let rootOffset := ((← v.bsbpb.rsvdSecCnt) + (← v.bsbpb.fatSz16) * (← v.bsbpb.numFats)) * (← v.bsbpb.bytsPerSec)
    let rootSize := (← v.bsbpb.rootEntCnt) * 32
    if rootSize = 0 then throw .ValueError
    let buf ← seekRead v.object (v.offset + rootOffset) rootSize
    if buf.length ≠ rootSize then throw .ValueError
    return (buf, [])

/-- dfir_ntfs/addons/FAT.py:1693 and dfir_ntfs/addons/exFAT.py:1297 (`str.format`): A decimal number as text. -/
def decimal (n : Nat) : Str := (Nat.toDigits 10 n).map Char.toNat

/-- '<Orphan directory {}>' (dfir_ntfs/addons/FAT.py:1693). -/
def orphanPath (n : Nat) : Str := ("<Orphan directory ".toList.map Char.toNat) ++ decimal n ++ [0x3E]

/-- dfir_ntfs/addons/FAT.py:1684-1694: the orphan directories, in the order in which the set gives them;
`process` is `process_buf`. -/
def orphans (v : Volume) (process : Bytes → Str → List Nat → Seen → Option Walk) : List Nat → Seen → Option Walk
  | [], seen => some (.done, seen)
  | cluster :: rest, seen =>
    match v.readChain cluster none with
    | .error e => if caught e then v.orphans process rest seen else some (.fail e, seen)
    | .ok buf =>
      if buf.length < 512 ∨ slice buf 32 35 ≠ [0x2E, 0x2E, 0x20] ∨ slice buf 0 2 ≠ [0x2E, 0x20] then
        v.orphans process rest seen
      else
        match process buf (orphanPath cluster) [] seen with
        | none => none
        | some (⟨items, some e⟩, seen) => some (⟨items, some e⟩, seen)
        | some (⟨items, none⟩, seen) =>
          match v.orphans process rest seen with
          | none => none
          | some (g, seen) => some (⟨items ++ g.items, g.err⟩, seen)

/-- dfir_ntfs/addons/FAT.py:1555-1694 `FileSystemParser.walk`; `processRoot` and `processOrphan` are
`process_buf` for the root directory and for the orphan directories.  `order` stands for the order in which
Python iterates over a set (any permutation of its elements). -/
def walkWith (v : Volume) (processRoot processOrphan : Bytes → Str → List Nat → Seen → Option Walk) (order : List Nat → List Nat) : Option (Gen Item) :=
  match v.root with
  | .error e => some (.fail e)
  | .ok (buf, stack) =>
    match processRoot buf [] stack ⟨[], stack⟩ with
    | none => none
    | some (⟨items, some e⟩, _) => some ⟨items, some e⟩
    | some (⟨items, none⟩, seen) =>
      let orphanDirectories := (seen.reallocated.filter (· ∉ seen.visited)).eraseDups     -- 1682
      match v.orphans processOrphan (order orphanDirectories) seen with
      | none => none
      | some (g, _) => some ⟨items ++ g.items, g.err⟩

/-- dfir_ntfs/addons/FAT.py:1555-1694 `FileSystemParser.walk`, with a bound on the depth of the recursion. -/
def walk (v : Volume) (codec : Codec) (scanReallocated : Bool) (order : List Nat → List Nat) (fuel : Nat) : Option (Gen Item) :=
  v.walkWith (v.processBuf codec scanReallocated fuel) (v.processBuf codec scanReallocated fuel) order

end Volume
end Verif.FAT
