/-
Model of dfir_ntfs/addons/FAT.py:1097-1448: `FileEntry`, `OrphanLongEntry`, `ExpandPath` and
`DirectoryEntries`.
-/
import Verif.Model.FAT.Names
namespace Verif.FAT

/-- dfir_ntfs/addons/FAT.py:1407 (`datetime.datetime` of the standard library): A naive `datetime`. -/
structure DateTime where
  date : Date
  time : Time
  microsecond : Nat
  deriving DecidableEq, Repr

/-- dfir_ntfs/addons/FAT.py:1102 `FileEntry`; `isDeleted` is `none` for `None` (unknown). -/
structure FileEntry where
  isDeleted : Option Bool
  isDirectory : Bool
  shortName : Str
  shortNameRaw : Bytes
  longName : Option Str
  atime : Option Date
  mtime : Option DateTime
  ctime : Option DateTime
  size : Nat
  attributes : Nat
  ntbyte : Nat
  firstCluster : Nat
  isEncrypted : Bool
  deriving DecidableEq, Repr

/-- dfir_ntfs/addons/FAT.py:1102-1104: a `FileEntry` or an `OrphanLongEntry`. -/
inductive Item where
  | file (entry : FileEntry)
  | orphan (longNamePartial : Option Str)
  deriving DecidableEq, Repr

/-- dfir_ntfs/addons/FAT.py:1107-1110: the parent path with a separator at its end. -/
def withSeparator (parentPath : Str) : Str :=
  if parentPath.length > 0 ∧ parentPath.getLast? ≠ some 0x2F then parentPath ++ [0x2F]
  else if parentPath.length = 0 then [0x2F]
  else parentPath

/-- dfir_ntfs/addons/FAT.py:1106-1138 `ExpandPath`: adding `None` to a string is a TypeError. -/
def expandPath (parentPath : Str) : Item → Except Exc Item
  | .file e =>
    .ok (.file { e with shortName := withSeparator parentPath ++ e.shortName
                        longName := e.longName.map (withSeparator parentPath ++ ·) })
  | .orphan none => .error .TypeError
  | .orphan (some name) => .ok (.orphan (some (withSeparator parentPath ++ name)))

/-- dfir_ntfs/addons/FAT.py:1160-1164 `get_real_long_order_number`. -/
def realLongOrder (order : Nat) : Nat := if order &&& 0x40 > 0 then order - 0x40 else order

/-- dfir_ntfs/addons/FAT.py:1166-1202 `are_long_names_coherent`.  The previous order and checksum are set and
reset together, they are one optional pair here. -/
def coherent (order checksum : Nat) : Option (Nat × Nat) → Bool
  | none =>
    if order ∉ [0x00, 0xE5] then decide (order &&& 0x40 > 0 ∧ order - 0x40 ≤ 20 ∧ order - 0x40 > 0)
    else true
  | some (prevOrder, prevChecksum) =>
    if order ∈ [0x00, 0xE5] ∧ prevOrder ∈ [0x00, 0xE5] then decide (checksum = prevChecksum)
    else if order ∉ [0x00, 0xE5] ∧ prevOrder ∉ [0x00, 0xE5] then
      decide (checksum = prevChecksum ∧ order &&& 0x40 = 0 ∧ order ≤ 20 ∧ order > 0 ∧ realLongOrder prevOrder = order + 1)
    else false

/-- dfir_ntfs/addons/FAT.py:1205-1209: the variables that live from one slot to the next. -/
structure Scan where
  entities : List Bytes
  prev : Option (Nat × Nat)
  foundNull : Bool
  deriving DecidableEq, Repr

/-- dfir_ntfs/addons/FAT.py:1242-1243, 1315-1316, 1447-1448: the stash, if there is any, as an orphan. -/
def flushStash (entities : List Bytes) : List Item :=
  if entities.length > 0 then [.orphan (buildLongName entities)] else []

/-- dfir_ntfs/addons/FAT.py:1234-1236, 1254-1256: the three pieces of a name in a slot, in the order of the
list. -/
def longPieces (slot : Bytes) : List Bytes := [slice slot 28 32, slice slot 14 26, slice slot 1 11]

/-- dfir_ntfs/addons/FAT.py:1231-1269: a slot with a part of a long name. -/
def longSlot (slot : Bytes) (st : Scan) : List Item × Scan :=
  let order := u8 slot 0
  let checksum := u8 slot 13
  if ¬ coherent order checksum st.prev then
    (flushStash st.entities,
     if coherent order checksum none then { st with entities := longPieces slot, prev := some (order, checksum) }
     else { st with entities := [], prev := none })
  else ([], { st with entities := st.entities ++ longPieces slot, prev := some (order, checksum) })

/-- dfir_ntfs/addons/FAT.py:1286-1289: the first byte of a volume label. -/
def labelRaw (raw : Bytes) : Bytes := replaceFirst raw

/-- dfir_ntfs/addons/FAT.py:1286-1302: the name of a volume label, decoded and raw. -/
def labelName (codec : Codec) (raw : Bytes) : Option (Str × Bytes) :=
  if (labelRaw raw).any (fun c => decide (c.toNat ∈ forbiddenCharactersLabel)) then none
  else some (codec.decode (rstrip (labelRaw raw)), rstrip (labelRaw raw))

/-- dfir_ntfs/addons/FAT.py:1277-1279: the short name, decoded and raw. -/
def shortName (codec : Codec) (raw : Bytes) (nt : NTByte) : Option (Str × Bytes) :=
  match parseShortName codec raw nt.lowercaseBase nt.lowercaseExtension, parseShortNameRaw raw with
  | some name, some norm => some (name, norm)
  | _, _ => none

/-- dfir_ntfs/addons/FAT.py:1401-1409: date and time together, plus tens of milliseconds.  The seconds are
even and there are at most 199 of those increments, so the sum stays in the same minute. -/
def dateTime (date : Option Date) (time : Option Time) (increments : Nat) : Option DateTime :=
  match date, time with
  | some d, some t => some ⟨d, { t with second := t.second + increments / 100 }, increments % 100 * 10000⟩
  | _, _ => none

/-- dfir_ntfs/addons/FAT.py:1357-1438: the entry of a file. -/
def fileEntry (isFat32 : Bool) (slot : Bytes) (name : Str × Bytes) (longName : Option Str) (isDirectory : Bool) (nt : NTByte)
    (foundNull : Bool) : FileEntry :=
  let isDeleted := decide (u8 slot 0 ∈ [0x00, 0xE5])
  let tenth := if u8 slot 13 > 199 then 0 else u8 slot 13                                 -- 1358
  { isDeleted := if foundNull = true ∧ isDeleted = false then none else some isDeleted    -- 1413
    isDirectory := isDirectory
    shortName := name.1
    shortNameRaw := name.2
    longName := longName
    atime := decodeFATDate (u16 slot 18)
    mtime := dateTime (decodeFATDate (u16 slot 24)) (decodeFATTime (u16 slot 22)) 0
    ctime := dateTime (decodeFATDate (u16 slot 16)) (decodeFATTime (u16 slot 14)) tenth
    size := u32 slot 28
    attributes := u8 slot 11 &&& 0x3F
    ntbyte := u8 slot 12
    firstCluster := ((if isFat32 then u16 slot 20 else 0) <<< 16) ||| u16 slot 26         -- 1382, 1411
    isEncrypted := nt.encrypted }

/-- dfir_ntfs/addons/FAT.py:1336-1347: `none` is an entry that is not valid. -/
def directoryFlag (attributes : Nat) : Option Bool :=
  if attributes &&& 0x18 = 0x10 then some true
  else if attributes &&& 0x18 = 0 then some false
  else if attributes &&& 0x18 = 0x08 then some false
  else none

/-- dfir_ntfs/addons/FAT.py:1306-1310: whether the stash is complete and has the checksum of the short name
(the condition for an entry that is not deleted). -/
def belongs (checksum : Nat) : Option (Nat × Nat) → Bool
  | none => false
  | some (prevOrder, prevChecksum) => decide (prevChecksum = checksum ∧ realLongOrder prevOrder = 1)

/-- dfir_ntfs/addons/FAT.py:1271-1441: a slot with a short name.  The checksum is that of the name as it
was changed at 1286-1289 for a volume label. -/
def shortSlot (codec : Codec) (isFat32 : Bool) (slot : Bytes) (st : Scan) : Except Exc (List Item × Scan) :=
  let attributes := u8 slot 11 &&& 0x3F
  let raw := slice slot 0 11
  match parseNTByte (u8 slot 12) with
  | .error e => .error e
  | .ok nt =>
    let isDeleted := decide (u8 slot 0 ∈ [0x00, 0xE5])                                    -- 1275
    let label := isVolumeLabel attributes
    let name := if label then labelName codec raw else shortName codec raw nt
    match buildChecksum (if label then labelRaw raw else raw) with
    | .error e => .error e
    | .ok checksum =>
      let matching := belongs checksum st.prev
      let longName := if isDeleted ∨ matching then buildLongName st.entities else none    -- 1307-1323
      let before := if isDeleted ∨ matching then [] else flushStash st.entities
      let rejected : List Item := if longName.isSome then [.orphan longName] else []
      let st' : Scan := { st with entities := [], prev := none }
      match name with
      | none => .ok (before ++ rejected, st')                                             -- 1329
      | some name =>
        match directoryFlag attributes with
        | none => .ok (before ++ rejected, st')                                           -- 1342
        | some isDirectory =>
          if slot.all (· = 0xE5) ∨ slot.all (· = 0x00) then .ok (before ++ rejected, st') -- 1349
          else .ok (before ++ [.file (fileEntry isFat32 slot name longName isDirectory nt st.foundNull)], st')

/-- dfir_ntfs/addons/FAT.py:1212-1441: one round of the loop, for the 32 bytes at the current position. -/
def scanSlot (codec : Codec) (isFat32 shortOnly : Bool) (slot : Bytes) (st : Scan) : Except Exc (List Item × Scan) :=
  let attributes := u8 slot 11 &&& 0x3F                                                   -- 1216
  let st := if u8 slot 0 = 0x00 then { st with foundNull := true } else st                -- 1218
  if attributes &&& 0x3F = 0x0F then                                                      -- 1221
    if shortOnly then .ok ([], st)
    else if u8 slot 12 ≠ 0 then .ok ([], st)
    else .ok (longSlot slot st)
  else shortSlot codec isFat32 slot st

/-- dfir_ntfs/addons/FAT.py:1211-1448: the loop over the slots, then the stash that remains.  (The code asks
whether the last slot was a file before it looks at the stash, which is empty in that case.) -/
def scanSlots (codec : Codec) (isFat32 shortOnly : Bool) : List Bytes → Scan → Gen Item
  | [], st => ⟨flushStash st.entities, none⟩
  | slot :: rest, st =>
    match scanSlot codec isFat32 shortOnly slot st with
    | .error e => .fail e
    | .ok (items, st) => Gen.append ⟨items, none⟩ (scanSlots codec isFat32 shortOnly rest st)

/-- The 32-byte slots of a buffer: the positions 0, 32, … of the loop at dfir_ntfs/addons/FAT.py:1211-1212
(the length of the buffer is a multiple of 512). -/
def slots (buf : Bytes) : List Bytes := (List.range (buf.length / 32)).map fun i => slice buf (32 * i) (32 * i + 32)

/-- dfir_ntfs/addons/FAT.py:1154-1448 `DirectoryEntries.entries`. -/
def entries (codec : Codec) (isFat32 shortOnly : Bool) (buf : Bytes) : Gen Item :=
  scanSlots codec isFat32 shortOnly (slots buf) ⟨[], none, false⟩

/-- dfir_ntfs/addons/FAT.py:1146-1152 `DirectoryEntries.__init__`: the checks. -/
def openDirectory (buf : Bytes) : Except Exc Unit :=
  if buf.length < 512 ∨ buf.length % 512 ≠ 0 then .error .DirectoryEntriesException else .ok ()

/-- dfir_ntfs/addons/FAT.py:1146-1448: The constructor and `entries`. -/
def listDirectory (codec : Codec) (isFat32 shortOnly : Bool) (buf : Bytes) : Gen Item :=
  match openDirectory buf with
  | .error e => .fail e
  | .ok () => entries codec isFat32 shortOnly buf

end Verif.FAT
