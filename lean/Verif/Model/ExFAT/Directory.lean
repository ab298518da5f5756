/-
Model of dfir_ntfs/addons/exFAT.py:694-1018: `FileEntry`, `OrphanEntry`, `VolumeLabelEntry`,
`AllocationBitmapEntry`, `ExpandPath` and `DirectoryEntries`.

The code keeps a position in the buffer that starts at zero and grows by multiples of 32 (the length of the buffer
is a multiple of 512): the model works on the list of the 32-byte slots that are left.
-/
import Verif.Model.ExFAT.Names
namespace Verif.ExFAT
open Verif.FAT (DateTime withSeparator slots)

/-- dfir_ntfs/addons/exFAT.py:700 `FileEntry`. -/
structure FileEntry where
  isDeleted : Bool
  isDirectory : Bool
  name : Str
  atime : Option DateTime
  atz : Option Int
  mtime : Option DateTime
  mtz : Option Int
  ctime : Option DateTime
  ctz : Option Int
  size : Nat
  validDataLength : Nat
  attributes : Nat
  firstCluster : Nat
  isEncrypted : Bool
  noFatChain : Bool
  deriving DecidableEq, Repr

/-- dfir_ntfs/addons/exFAT.py:700-705: the named tuples. -/
inductive Item where
  | file (entry : FileEntry)
  | orphan (namePartial : Str)
  | label (volumeLabel : Str)
  | bitmap (bitmapId firstCluster size : Nat)
  deriving DecidableEq, Repr

/-- dfir_ntfs/addons/exFAT.py:707-740 `ExpandPath` (the separator is added as in dfir_ntfs/addons/FAT.py:1107-1110);
other tuples are returned as they are. -/
def expandPath (parentPath : Str) : Item → Item
  | .file e => .file { e with name := withSeparator parentPath ++ e.name }
  | .orphan name => .orphan (withSeparator parentPath ++ name)
  | item => item

/-- dfir_ntfs/addons/exFAT.py:869-897: what is kept of a stream extension. -/
structure Stream where
  noFatChain : Bool
  nameLength : Nat
  validDataLength : Nat
  firstCluster : Nat
  dataLength : Nat
  deriving DecidableEq, Repr

/-- dfir_ntfs/addons/exFAT.py:841-853: the checks of every secondary entry. -/
def secondaryOk (isDeleted : Bool) (slot : Bytes) : Bool :=
  if u8 slot 0 ∈ [0x00, 0x80] then false
  else if typeCategory (u8 slot 0) ≠ 1 then false
  else if isDeleted = false ∧ isInUse (u8 slot 0) = false then false
  else true

/-- dfir_ntfs/addons/exFAT.py:869-890: a stream extension; `none` is an invalid set. -/
def streamOf (slot : Bytes) : Option Stream :=
  let (allocationPossible, noFatChain) := decodeFlags (u8 slot 1)
  if ¬ allocationPossible then none                                                       -- 873
  else if u8 slot 3 = 0 then none                                                         -- 888
  else some ⟨noFatChain, u8 slot 3, u64 slot 8, u32 slot 20, u64 slot 24⟩                 -- 883

/-- dfir_ntfs/addons/exFAT.py:892-897 `max_file_name_count`. -/
def maxFileNameCount (nameLength : Nat) : Nat :=
  if nameLength ≤ 15 then 1
  else if nameLength % 15 = 0 then nameLength / 15
  else nameLength / 15 + 1

/-- dfir_ntfs/addons/exFAT.py:840-922: the loop over the secondary entries from the second one (`i` is the number
of the entry, from zero; the code counts bytes): the parts of the name, `none` is an invalid set. -/
def nameParts (isDeleted : Bool) (maxCount : Nat) : List Bytes → (i count : Nat) → (foundVendor : Bool) → Option (List Bytes)
  | [], _, _, _ => some []
  | slot :: rest, i, count, foundVendor =>
    let pure := withoutInUse (u8 slot 0)
    if ¬ secondaryOk isDeleted slot then none
    else if i = 1 ∧ pure ≠ 0x41 then none                                                 -- 861
    else if i ≥ 2 ∧ pure = 0x40 then none                                                 -- 865
    else if pure = 0x41 then
      if count + 1 > maxCount ∨ count + 1 > 17 then none                                  -- 902
      else if foundVendor then none                                                       -- 913
      else (nameParts isDeleted maxCount rest (i + 1) (count + 1) foundVendor).map (slice slot 2 32 :: ·)
    else if pure ∈ [0x60, 0x61] then nameParts isDeleted maxCount rest (i + 1) count true -- 917
    else if foundVendor then none                                                         -- 913
    else nameParts isDeleted maxCount rest (i + 1) count foundVendor

/-- dfir_ntfs/addons/exFAT.py:834-926: the secondary entries of a set: the stream extension and the parts of the
name; `none` is an invalid set.  The first one has to be a stream extension (857), so the later uses of its fields
are always defined. -/
def secondaries (isDeleted : Bool) : List Bytes → Option (Stream × List Bytes)
  | [] => none
  | first :: rest =>
    if ¬ secondaryOk isDeleted first then none
    else if withoutInUse (u8 first 0) ≠ 0x40 then none                                    -- 857
    else
      match streamOf first with
      | none => none
      | some stream =>
        match nameParts isDeleted (maxFileNameCount stream.nameLength) rest 1 0 false with
        | none => none
        | some parts => some (stream, parts)

/-- dfir_ntfs/addons/exFAT.py:810-823, 936: the file of a set. -/
def fileEntry (slot : Bytes) (isDeleted : Bool) (stream : Stream) (name : Str) : FileEntry :=
  { isDeleted := isDeleted
    isDirectory := decide (u16 slot 4 &&& 0x10 > 0)
    name := name
    atime := decodeFATTimestamp (u32 slot 16) 0
    atz := decodeFATTimezone (u8 slot 24)
    mtime := decodeFATTimestamp (u32 slot 12) (u8 slot 21)
    mtz := decodeFATTimezone (u8 slot 23)
    ctime := decodeFATTimestamp (u32 slot 8) (u8 slot 20)
    ctz := decodeFATTimezone (u8 slot 22)
    size := stream.dataLength
    validDataLength := stream.validDataLength
    attributes := u16 slot 4
    firstCluster := stream.firstCluster
    isEncrypted := decide (u16 slot 6 &&& 0x8000 > 0)
    noFatChain := stream.noFatChain }

/-- dfir_ntfs/addons/exFAT.py:801-936: a file entry, followed by the slots `rest`: the file, and the number of
secondary entries; `none` is one of the cases in which only the first slot is skipped. -/
def fileSet (slot : Bytes) (rest : List Bytes) : Except Exc (Option (FileEntry × Nat)) :=
  let secondaryCount := u8 slot 1
  if secondaryCount < 2 ∨ secondaryCount > 64 then .ok none                               -- 803
  else
    let isDeleted := !isInUse (u8 slot 0)
    let secondary := rest.take secondaryCount
    if secondary.length ≠ secondaryCount then .ok none                                    -- 826
    else
      match (if isDeleted then .ok true else (entrySetChecksum (slot ++ secondary.flatten)).map (decide <| u16 slot 2 = ·)) with -- 830
      | .error e => .error e
      | .ok false => .ok none
      | .ok true =>
        match secondaries isDeleted secondary with
        | none => .ok none                                                                -- 924
        | some (stream, parts) =>
          match buildName parts (some stream.nameLength) with
          | none => .ok none                                                              -- 932
          | some name => .ok (some (fileEntry slot isDeleted stream name, secondaryCount))

/-- dfir_ntfs/addons/exFAT.py:941-963: a volume label, the first one; the error is the exception. -/
def labelOf (slot : Bytes) : Except Exc (List Item) :=
  if u8 slot 1 > 15 then .error .DirectoryEntriesException                                -- 953
  else if u8 slot 1 > 0 then
    match buildLabel (slice slot 2 (2 + u8 slot 1 * 2)) (u8 slot 1) with
    | none => .error .DirectoryEntriesException                                           -- 960
    | some label => .ok [.label label]
  else .ok []

/-- dfir_ntfs/addons/exFAT.py:980-1005: the parts of a name outside of a set; at most `n` more are taken. -/
def orphanParts (entryType : Nat) : (n : Nat) → List Bytes → List Bytes
  | 0, _ => []                                                                            -- 996
  | _, [] => []
  | n + 1, slot :: rest =>
    if u8 slot 1 ≠ 0 then []                                                              -- 989
    else
      slice slot 2 32 ::
        (if slice slot 30 32 = [0, 0] then []                                             -- 999
         else
          match rest with
          | [] => []                                                                      -- 1004
          | next :: _ => if u8 next 0 = entryType then orphanParts entryType n rest else []) -- 984

/-- dfir_ntfs/addons/exFAT.py:765-1015: the loop over the slots.  `skip` is the number of slots to go over (the
position was advanced by more than one slot at 938 and 1012), `labels` and `bitmaps` are the counts. -/
def scan (isRoot : Bool) : List Bytes → (skip labels bitmaps : Nat) → Gen Item
  | [], _, _, _ => .done
  | _ :: rest, skip + 1, labels, bitmaps => scan isRoot rest skip labels bitmaps
  | slot :: rest, 0, labels, bitmaps =>
    let entryType := u8 slot 0
    let pure := withoutInUse entryType
    let inUse := isInUse entryType
    if entryType = 0x00 then .done                                                        -- 768
    else if entryType = 0x80 then                                                         -- 771
      if isRoot then .fail .DirectoryEntriesException else .done
    else if typeCategory entryType = 0 then
      if isRoot = false ∧ inUse = true ∧ pure ∈ [0x01, 0x02, 0x03] then .done             -- 785
      else if isRoot = false ∧ inUse = true ∧ pure = 0x20 then scan isRoot rest 0 labels bitmaps -- 788
      else if pure = 0x21 then scan isRoot rest 0 labels bitmaps                          -- 792
      else if pure = 0x22 then scan isRoot rest 0 labels bitmaps                          -- 796
      else if pure = 0x05 then                                                            -- 800
        match fileSet slot rest with
        | .error e => .fail e
        | .ok none => scan isRoot rest 0 labels bitmaps
        | .ok (some (e, count)) => (scan isRoot rest count labels bitmaps).cons (.file e) -- 936-938
      else if isRoot = true ∧ pure = 0x03 ∧ inUse = true then                             -- 941
        if labels + 1 ≥ 2 then .fail .DirectoryEntriesException
        else
          match labelOf slot with
          | .error e => .fail e
          | .ok items => Gen.append ⟨items, none⟩ (scan isRoot rest 0 (labels + 1) bitmaps)
      else if isRoot = true ∧ pure = 0x01 ∧ inUse = true then                             -- 965
        if bitmaps + 1 ≥ 3 then .fail .DirectoryEntriesException
        else (scan isRoot rest 0 labels (bitmaps + 1)).cons (.bitmap (u8 slot 1 &&& 1) (u32 slot 20) (u64 slot 24))
      else scan isRoot rest 0 labels bitmaps
    else if pure = 0x41 then                                                              -- 979
      let parts := orphanParts entryType 17 (slot :: rest)
      if parts.length > 0 then                                                            -- 1007
        match buildName parts none with
        | none => scan isRoot rest 0 labels bitmaps
        | some name => (scan isRoot rest (parts.length - 1) labels bitmaps).cons (.orphan name) -- 1012
      else scan isRoot rest 0 labels bitmaps
    else scan isRoot rest 0 labels bitmaps

/-- dfir_ntfs/addons/exFAT.py:748-753 `DirectoryEntries.__init__`: the checks. -/
def openDirectory (buf : Bytes) : Except Exc Unit :=
  if buf.length < 512 ∨ buf.length % 512 ≠ 0 then .error .DirectoryEntriesException else .ok ()

/-- dfir_ntfs/addons/exFAT.py:755-1015 `DirectoryEntries.entries`. -/
def entries (isRoot : Bool) (buf : Bytes) : Gen Item := scan isRoot (slots buf) 0 0 0

/-- dfir_ntfs/addons/exFAT.py:748-1015: The constructor and `entries`. -/
def listDirectory (isRoot : Bool) (buf : Bytes) : Gen Item :=
  match openDirectory buf with
  | .error e => .fail e
  | .ok () => entries isRoot buf

end Verif.ExFAT
