/-
Model of dfir_ntfs/PartitionTable.py: GPT, MBR and EBR partition tables.
-/
import Verif.Basic.Exc
import Verif.Basic.Utf16
import Verif.Basic.Crc32
namespace Verif.PartitionTable

/-- dfir_ntfs/PartitionTable.py:34 `GPTHeader`.  A GUID is kept as its 16 raw bytes (`uuid.UUID`
with `bytes_le` only rearranges them). -/
structure GPTHeader where
  location : Nat
  firstUsableLba : Nat
  lastUsableLba : Nat
  diskGuid : Bytes
  partitionEntryLba : Nat
  numberOfPartitionEntries : Nat
  sizeOfPartitionEntry : Nat
  partitionEntryCrc32 : Nat
  deriving DecidableEq, Repr

/-- dfir_ntfs/PartitionTable.py:35 `GPTPartition`. -/
structure GPTPartition where
  partitionTypeGuid : Bytes
  uniquePartitionGuid : Bytes
  startingLba : Nat
  endingLba : Nat
  attributes : Nat
  partitionName : Str
  deriving DecidableEq, Repr

/-- dfir_ntfs/PartitionTable.py:38 `MBRPartition`. -/
structure MBRPartition where
  bootIndicator : Nat
  startingChs : Bytes
  osType : Nat
  endingChs : Bytes
  startingLba : Nat
  sizeInLba : Nat
  deriving DecidableEq, Repr

/-- dfir_ntfs/PartitionTable.py:39 `EBRPartition`. -/
structure EBRPartition where
  bootIndicator : Nat
  osType : Nat
  startingLba : Nat
  sizeInLba : Nat
  deriving DecidableEq, Repr

/-- A constructed `GPT` object without its only mutable field `backup_lba`, which is passed around
(dfir_ntfs/PartitionTable.py:44-54); the volume size is the length of the volume. -/
structure GPT where
  volume : Bytes
  sectorSize : Nat
  deriving DecidableEq

/-- dfir_ntfs/PartitionTable.py:56-69: the constructor. -/
def GPT.init (volume : Bytes) (sectorSize : Nat) : Except Exc GPT :=
  if sectorSize < 512 ∨ sectorSize % 512 ≠ 0 then .error .ValueError
  else if volume.length < 3 * sectorSize + 2 * 16384 then .error .ValueError
  else .ok ⟨volume, sectorSize⟩

/-- dfir_ntfs/PartitionTable.py:106-110: the header with its checksum field cleared. -/
def clearCrc (buf : Bytes) : Bytes := (((buf.set 16 0).set 17 0).set 18 0).set 19 0

/-- dfir_ntfs/PartitionTable.py:99-148: the checks of `read_gpt_header_internal` after the signature
has been found in the sector `buf` at `headerOffset`. -/
def GPT.checkHeader (g : GPT) (buf : Bytes) (headerOffset location : Nat) : Except Exc GPTHeader :=
  if u32 buf 8 = 0 then .error .ValueError                                                    -- 99
  else if u32 buf 12 < 92 ∨ u32 buf 12 > g.sectorSize then .error .ValueError                 -- 102
  else if crc32 (clearCrc (buf.take (u32 buf 12))) ≠ u32 buf 16 then .error .ValueError       -- 106-114
  else if u64 buf 24 * g.sectorSize ≠ headerOffset then .error .ValueError                    -- 116
  else if u64 buf 24 = u64 buf 32 ∨ u64 buf 32 = 0 then .error .ValueError                    -- 119
  else if u64 buf 40 < (2 * g.sectorSize + 16384) / g.sectorSize then .error .ValueError      -- 125
  else if u64 buf 72 ≤ 1 ∨ (u64 buf 72 * g.sectorSize : Int) ≥ (g.volume.length : Int) - g.sectorSize then
    .error .ValueError                                                                        -- 128
  else if u32 buf 84 < 128 ∨ u32 buf 84 % 128 ≠ 0 then .error .ValueError                     -- 131
  else
    match seekRead g.volume (u64 buf 72 * g.sectorSize) (u32 buf 80 * u32 buf 84) with        -- 137-140
    | .error e => .error e
    | .ok array =>
      if array.length ≠ u32 buf 80 * u32 buf 84 then .error .ValueError                       -- 141
      else if crc32 array ≠ u32 buf 88 then .error .ValueError                                -- 144-146
      else .ok ⟨location, u64 buf 40, u64 buf 48, slice buf 56 72, u64 buf 72, u32 buf 80, u32 buf 84, u32 buf 88⟩

/-- dfir_ntfs/PartitionTable.py:85-148: `read_gpt_header_internal` for a header at the given place;
also the new value of `backup_lba`. -/
def GPT.readHeaderAt (g : GPT) (headerOffset location : Nat) (backup : Option Nat) :
    Except Exc GPTHeader × Option Nat :=
  match seekRead g.volume headerOffset g.sectorSize with                                      -- 85-88
  | .error e => (.error e, backup)
  | .ok buf =>
    if buf.length ≠ g.sectorSize then (.error .ValueError, backup)                            -- 89-90
    else if slice buf 0 8 ≠ [0x45, 0x46, 0x49, 0x20, 0x50, 0x41, 0x52, 0x54] then             -- 94-95
      (.error .ValueError, backup)
    else (g.checkHeader buf headerOffset location, some (u64 buf 32))                         -- 97

/-- dfir_ntfs/PartitionTable.py:71-83: which header to read. -/
def GPT.readHeaderInternal (g : GPT) (readBackup : Bool) (backupLba : Option Nat) (backup : Option Nat) :
    Except Exc GPTHeader × Option Nat :=
  if readBackup = false then g.readHeaderAt g.sectorSize 0 backup
  else
    match backupLba with
    | none => g.readHeaderAt (g.volume.length - g.sectorSize) 1 backup
    | some lba => g.readHeaderAt (lba * g.sectorSize) 2 backup

/-- dfir_ntfs/PartitionTable.py:156 and 161: `except (ValueError, OverflowError)`. -/
def caughtByHeader (e : Exc) : Bool := e = .ValueError ∨ e = .OverflowError

/-- dfir_ntfs/PartitionTable.py:150-166 `read_gpt_header`; `backup` is the value of `backup_lba`
before the call (`none` for a new object). -/
def GPT.readHeader (g : GPT) (backup : Option Nat := none) : Except Exc GPTHeader × Option Nat :=
  match g.readHeaderInternal false none backup with
  | (.ok h, b) => (.ok h, b)
  | (.error e, b) =>
    if caughtByHeader e then
      match b with
      | some lba =>
        match g.readHeaderInternal true (some lba) b with
        | (.ok h, b') => (.ok h, b')
        | (.error e', b') => if caughtByHeader e' then g.readHeaderInternal true none b' else (.error e', b')
      | none => g.readHeaderInternal true none b
    else (.error e, b)

/-- What `n` calls of `read_gpt_header` (dfir_ntfs/PartitionTable.py:150-166) on one object give, one
after another; `backup` is the value of `backup_lba` before the first of them, which every call passes
on to the next one (dfir_ntfs/PartitionTable.py:53, 97). -/
def GPT.readHeaders (g : GPT) : Nat → (backup : Option Nat := none) → List (Except Exc GPTHeader)
  | 0, _ => []
  | n + 1, backup => (g.readHeader backup).1 :: g.readHeaders n (g.readHeader backup).2

/-- dfir_ntfs/PartitionTable.py:205-212: the name of a partition. -/
def decodePartitionName (raw : Bytes) : Str :=
  match utf16DecodeStrict raw with
  | none => []
  | some s => s.takeWhile (· ≠ 0)

/-- dfir_ntfs/PartitionTable.py:195-217: one partition entry; `none` for an unused one. -/
def decodePartitionEntry (part : Bytes) : Option GPTPartition :=
  if slice part 0 16 = zeros 16 then none
  else some ⟨slice part 0 16, slice part 16 32, u64 part 32, u64 part 40, u64 part 48, decodePartitionName (slice part 56 128)⟩

/-- dfir_ntfs/PartitionTable.py:191-219: the loop of `read_gpt_partitions`; `n` entries are left,
the next one is `i`.  A short slice would make `struct.unpack` raise `struct.error`. -/
def partitionsLoop (buf : Bytes) (size : Nat) : Nat → Nat → List GPTPartition → Except Exc (List GPTPartition)
  | 0, _, results => .ok results
  | n + 1, i, results =>
    let part := slice buf (i * size) (i * size + 128)
    if part.length ≠ 128 then .error .StructError
    else
      match decodePartitionEntry part with
      | none => partitionsLoop buf size n (i + 1) results
      | some p => partitionsLoop buf size n (i + 1) (results ++ [p])

/-- dfir_ntfs/PartitionTable.py:168-219 `read_gpt_partitions`. -/
def GPT.readPartitions (g : GPT) (lba number size crc : Nat) : Except Exc (List GPTPartition) :=
  if number = 0 then .ok []
  else if lba ≤ 1 ∨ (lba * g.sectorSize : Int) ≥ (g.volume.length : Int) - g.sectorSize then .error .ValueError
  else if size < 128 ∨ size % 128 ≠ 0 then .error .ValueError
  else
    match seekRead g.volume (lba * g.sectorSize) (number * size) with
    | .error e => .error e
    | .ok buf =>
      if buf.length ≠ number * size then .error .ValueError
      else if crc32 buf ≠ crc then .error .ValueError
      else partitionsLoop buf size number 0 []

/-- A constructed `MBR` object (dfir_ntfs/PartitionTable.py:224-231). -/
structure MBR where
  volume : Bytes
  sectorSize : Nat
  deriving DecidableEq

/-- dfir_ntfs/PartitionTable.py:233-246: the constructor. -/
def MBR.init (volume : Bytes) (sectorSize : Nat) : Except Exc MBR :=
  if sectorSize < 512 ∨ sectorSize % 512 ≠ 0 then .error .ValueError
  else if volume.length < 2 * sectorSize then .error .ValueError
  else .ok ⟨volume, sectorSize⟩

/-- dfir_ntfs/PartitionTable.py:248-263 `read_mbr`: `(is_boot_code_present, disk_signature)`. -/
def MBR.readMbr (m : MBR) : Except Exc (Bool × Nat) :=
  let buf := slice m.volume 0 512
  if buf.length ≠ 512 then .error .ValueError
  else if u16 buf 510 ≠ 0xAA55 then .error .ValueError
  else .ok (u8 buf 0 ≠ 0 ∧ u8 buf 1 ≠ 0, u32 buf 440)

/-- dfir_ntfs/PartitionTable.py:278-286: one slot of the table. -/
def decodeMbrSlot (part : Bytes) : Option MBRPartition :=
  if u8 part 4 = 0 then none
  else some ⟨u8 part 0, slice part 1 4, u8 part 4, slice part 5 8, u32 part 8, u32 part 12⟩

/-- dfir_ntfs/PartitionTable.py:274-290: the loop of `read_mbr_partitions`. -/
def mbrLoop (buf : Bytes) : Nat → Nat → List MBRPartition → List MBRPartition
  | 0, _, results => results
  | n + 1, i, results =>
    match decodeMbrSlot (slice buf (446 + i * 16) (446 + i * 16 + 16)) with
    | none => mbrLoop buf n (i + 1) results
    | some p => mbrLoop buf n (i + 1) (results ++ [p])

/-- dfir_ntfs/PartitionTable.py:265-290 `read_mbr_partitions`. -/
def MBR.readPartitions (m : MBR) : Except Exc (List MBRPartition) :=
  let buf := slice m.volume 0 512
  if buf.length ≠ 512 then .error .ValueError else .ok (mbrLoop buf 4 0 [])

/-- dfir_ntfs/PartitionTable.py:27. -/
def supportedExtendedPartitionTypes : List Nat := [0x5, 0xF, 0x85]

/-- dfir_ntfs/PartitionTable.py:295-316 `read_ebr`: the partition and the relative place of the next
EBR; `none` stands for `(None, None)`.  (Places are below 2^33 sectors; an offset that the file
object cannot represent would need sectors of more than 2^30 bytes and is not modelled.) -/
def MBR.readEbr (m : MBR) (lba : Nat) : Option (EBRPartition × Nat) :=
  let buf := slice m.volume (lba * m.sectorSize) (lba * m.sectorSize + 512)
  if buf.length ≠ 512 then none
  else if u16 buf 510 ≠ 0xAA55 then none
  else
    let part := slice buf 446 462
    let next := slice buf 462 478
    some (⟨u8 part 0, u8 part 4, lba + u32 part 8, u32 part 12⟩, u32 next 8)

/-- dfir_ntfs/PartitionTable.py:331-344: the `while True` loop over one chain.  The loop has no bound
in the code; here it gets a number of steps and gives `none` when they do not suffice.  The results
and the set `track` (as a list) are the loop variables. -/
def MBR.ebrChain (m : MBR) (first : Nat) : Nat → Nat → List EBRPartition → List Nat → Option (List EBRPartition × List Nat)
  | 0, _, _, _ => none
  | fuel + 1, relative, results, track =>
    let curr := first + relative
    if curr ∈ track then some (results, track)
    else
      let track := curr :: track
      match m.readEbr curr with
      | none => some (results, track)
      | some (partition, next) =>
        let results := if partition.osType ≠ 0 then results ++ [partition] else results
        if next = 0 then some (results, track) else m.ebrChain first fuel next results track

/-- dfir_ntfs/PartitionTable.py:321-346: the loop over the partitions of the MBR. -/
def MBR.ebrLoop (m : MBR) (fuel : Nat) : List MBRPartition → List EBRPartition → List Nat → Option (List EBRPartition)
  | [], results, _ => some results
  | part :: rest, results, track =>
    if part.osType ∉ supportedExtendedPartitionTypes then m.ebrLoop fuel rest results track
    else if part.startingLba = 0 then some []                                                 -- 328-329
    else
      match m.ebrChain part.startingLba fuel 0 results track with
      | none => none
      | some (results, track) => m.ebrLoop fuel rest results track

/-- dfir_ntfs/PartitionTable.py:292-346 `read_ebr_partitions`, with `fuel` steps for each chain
(`none`: they do not suffice). -/
def MBR.readEbrPartitions (m : MBR) (fuel : Nat) : Except Exc (Option (List EBRPartition)) :=
  match m.readPartitions with
  | .error e => .error e
  | .ok parts => .ok (m.ebrLoop fuel parts [] [])

end Verif.PartitionTable
