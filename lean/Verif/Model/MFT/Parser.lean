/-
Model of dfir_ntfs/MFT.py:915-1364: `MasterFileTableParser`.
-/
import Verif.Model.MFT.FileRecord
import Verif.Model.Attributes
namespace Verif.MFT
open Verif.Attributes

/-- The `MasterFileTableParser` object (dfir_ntfs/MFT.py:918-934): the contents of the `$MFT` file, the
size of a file record segment, and `child_cache` (a `dict` as the list of its items in the order of
insertion). -/
structure Parser where
  file : Bytes
  size : Nat
  cache : List (Nat × List Nat)
  deriving DecidableEq, Repr

/-- `except MasterFileTableException` (the classes are defined at dfir_ntfs/MFT.py:48-75). -/
def isMftExc : Exc → Bool
  | .MasterFileTableException | .FileRecordSegmentException | .FileRecordSegmentSignatureException
  | .AttributeException | .MappingPairsException => true
  | _ => false

/-- dfir_ntfs/MFT.py:1297 and 1332: `except FileRecordSegmentException`. -/
def isFrsExc : Exc → Bool
  | .FileRecordSegmentException | .FileRecordSegmentSignatureException | .AttributeException | .MappingPairsException => true
  | _ => false

/-- dfir_ntfs/MFT.py:915-1367 (the dictionary of child segments): `dict.get`. -/
def cacheGet (cache : List (Nat × List Nat)) (key : Nat) : Option (List Nat) := (cache.find? (·.1 == key)).map (·.2)

/-- dfir_ntfs/MFT.py:1306-1309: append to the list of a key, or insert the key. -/
def cacheAdd (cache : List (Nat × List Nat)) (key child : Nat) : List (Nat × List Nat) :=
  if cache.any (·.1 == key) then cache.map fun p => if p.1 == key then (p.1, p.2 ++ [child]) else p
  else cache ++ [(key, [child])]

/-- dfir_ntfs/MFT.py:1287-1311, the loop of `execute_first_pass`: the cache and the statistics (number
of file record segments, number of child segments).  `i` is `pos // size`. -/
def firstPassLoop (file : Bytes) (size : Nat) (i : Nat) (cache : List (Nat × List Nat)) (cnt childCnt : Nat) :
    Except Exc (List (Nat × List Nat) × Nat × Nat) :=
  if i * size < file.length ∧ 0 < size then                                             -- 1288
    let buf := slice file (i * size) (i * size + size)                                  -- 1289-1290
    if buf.length ≠ size then .ok (cache, cnt, childCnt)                                -- 1292
    else
      match FileRecordSegment.init buf true (some i) with                               -- 1296
      | .error e =>
        if isFrsExc e then firstPassLoop file size (i + 1) cache cnt childCnt           -- 1297-1300
        else .error e
      | .ok f =>
        if f.isBaseFileRecordSegment then firstPassLoop file size (i + 1) cache (cnt + 1) childCnt
        else firstPassLoop file size (i + 1) (cacheAdd cache f.baseFileRecordSegment i) (cnt + 1) (childCnt + 1)  -- 1304-1313
  else .ok (cache, cnt, childCnt)
termination_by file.length - i * size
decreasing_by all_goals (rw [Nat.add_mul]; omega)

/-- dfir_ntfs/MFT.py:995-1005 `get_file_record_segment_by_number`. -/
def Parser.getSegment (p : Parser) (n : Nat) : Except Exc FileRecordSegment :=
  if n * p.size > p.file.length then .error .MasterFileTableException                    -- 1000
  else FileRecordSegment.init (slice p.file (n * p.size) (n * p.size + p.size)) true (some n)

/-- dfir_ntfs/MFT.py:1026-1032, 1050-1056, 1348-1354: the sequence number under which a record is known:
that of a deleted one was incremented when it was deleted. -/
def effectiveSequenceNumber (f : FileRecordSegment) : Nat :=
  if f.isInUse then f.sequenceNumber
  else if f.sequenceNumber ≥ 2 then f.sequenceNumber - 1
  else if f.sequenceNumber = 0 then 0xFFFF
  else f.sequenceNumber

/-- dfir_ntfs/MFT.py:1039-1041: load the child segments. -/
def Parser.loadChildren (p : Parser) : List Nat → Except Exc (List FileRecordSegment)
  | [] => .ok []
  | n :: rest =>
    match p.getSegment n with
    | .error e => .error e
    | .ok f =>
      match p.loadChildren rest with
      | .error e => .error e
      | .ok fs => .ok (f :: fs)

/-- dfir_ntfs/MFT.py:1037-1045 and 1356-1364: the file record of a base segment.  (The number of a
segment that was read with a suggested number is never `None`; otherwise line 1037 would raise a
`TypeError`.) -/
def Parser.assemble (p : Parser) (f : FileRecordSegment) : Except Exc FileRecord :=
  match f.masterFileTableNumber with
  | none => .error .TypeError
  | some mft =>
    match cacheGet p.cache (encodeFileRecordSegmentReference mft (effectiveSequenceNumber f)) with
    | none => .ok ⟨f, []⟩                                                              -- 1045
    | some ns =>
      match p.loadChildren ns with
      | .error e => .error e
      | .ok fs => .ok ⟨f, fs⟩                                                          -- 1043

/-- dfir_ntfs/MFT.py:1007-1070 `get_file_record_by_number`, with the treatment of a child segment
(1047-1070) as an argument. -/
def Parser.getRecordWith (p : Parser) (onChild : FileRecordSegment → Except Exc FileRecord) (n : Nat)
    (expected : Option Nat) : Except Exc FileRecord :=
  match p.getSegment n with                                                            -- 1015-1022
  | .error e => .error e
  | .ok f =>
    if f.isBaseFileRecordSegment then                                                  -- 1023
      if expected ≠ none ∧ expected ≠ some (effectiveSequenceNumber f) then .error .MasterFileTableException  -- 1034
      else p.assemble f
    else onChild f

/-- dfir_ntfs/MFT.py:1009-1070 with `allow_child_file_record_segment_number = False`. -/
def Parser.getBaseRecord (p : Parser) (n : Nat) (expected : Option Nat) : Except Exc FileRecord :=
  p.getRecordWith (fun _ => .error .MasterFileTableException) n expected                -- 1070

/-- dfir_ntfs/MFT.py:1009-1070 with `allow_child_file_record_segment_number = True` (the default): for a
child segment, the base segment is looked up in the cache; the recursive call (1068) does not allow a
child any more. -/
def Parser.getRecord (p : Parser) (n : Nat) (expected : Option Nat := none) : Except Exc FileRecord :=
  p.getRecordWith (fun f =>
    if expected ≠ none ∧ expected ≠ some (effectiveSequenceNumber f) then .error .MasterFileTableException  -- 1058
    else
      match p.cache.find? (fun e => e.2.contains n) with                               -- 1064-1065
      | some e =>
        let d := decodeFileRecordSegmentReference e.1                                  -- 1066
        p.getBaseRecord d.1 (some d.2)                                                 -- 1068
      | none => .error .MasterFileTableException) n expected

/-- `attr.value_decoded()` (dfir_ntfs/MFT.py:507-515) for a resident attribute, seen by a consumer that
is interested in `$FILE_NAME` only: the value if it is one.  The constructors of all the other classes
do nothing (dfir_ntfs/Attributes.py:226, 452), except that of `$INDEX_ALLOCATION`
(dfir_ntfs/Attributes.py:888), which calls `seek` on the value: bytes have no such method. -/
def AttributeRecord.fileNameValue : AttributeRecord → Except Exc (Option Bytes)
  | .nonresident _ _ _ _ _ _ _ => .ok none
  | .resident t _ v =>
    if t = 0x30 then .ok (some v)
    else if t = 0xA0 then .error .AttributeError
    else .ok none

/-- dfir_ntfs/MFT.py:967-993 `check_ntfs_version`: the loop over the attributes of the volume record
(`value_decoded` raises for a resident `$INDEX_ALLOCATION`, see `fileNameValue`). -/
def checkVersionLoop (err : Option Exc) : List AttributeRecord → Except Exc Unit
  | [] =>
    match err with
    | some e => .error e
    | none => .error .MasterFileTableException                                          -- 986
  | .nonresident _ _ _ _ _ _ _ :: rest => checkVersionLoop err rest
  | .resident t _ v :: rest =>
    if t = 0xA0 then .error .AttributeError
    else if t = 0x70 then
      match unpackLE 1 (slice v 8 9) with                                               -- 981
      | .error e => .error e
      | .ok major =>
        match unpackLE 1 (slice v 9 10) with
        | .error e => .error e
        | .ok minor =>
          if major ≠ 3 then .error .MasterFileTableException                            -- 989
          else if minor < 1 then .error .MasterFileTableException                       -- 992
          else .ok ()
    else checkVersionLoop err rest

/-- dfir_ntfs/MFT.py:936-966, the constructor. -/
def Parser.init (file : Bytes) (doFirstPass : Bool := true) : Except Exc Parser :=
  if slice file 0 4 ≠ multiSectorHeaderSignatureGood then .error .FileRecordSegmentSignatureException  -- 945
  else
    let raw := slice file 28 32
    if raw.length ≠ 4 then .error .FileRecordSegmentException                           -- 950
    else
      let size := leNat raw
      if size ∉ fileRecordSegmentSizesSupported then .error .FileRecordSegmentException  -- 954
      else
        match (Parser.mk file size []).getSegment 3 with                                -- 971
        | .error e => .error e
        | .ok f =>
          match checkVersionLoop f.attributesGen.err f.attributesGen.items with
          | .error e => .error e
          | .ok () =>
            if doFirstPass then
              match firstPassLoop file size 0 [] 0 0 with                               -- 966
              | .error e => .error e
              | .ok (cache, _) => .ok ⟨file, size, cache⟩
            else .ok ⟨file, size, []⟩

/-! ### Enumeration of file records -/

/-- dfir_ntfs/MFT.py:1321-1364, the loop of `file_records`. -/
def fileRecordsLoop (p : Parser) (inUseOnly : Bool) (i : Nat) : Gen FileRecord :=
  if i * p.size < p.file.length ∧ 0 < p.size then
    let buf := slice p.file (i * p.size) (i * p.size + p.size)
    if buf.length ≠ p.size then .done                                                   -- 1326
    else
      match FileRecordSegment.init buf true (some i) with
      | .error e => if isFrsExc e then fileRecordsLoop p inUseOnly (i + 1) else .fail e  -- 1331
      | .ok f =>
        if inUseOnly ∧ ¬ f.isInUse then fileRecordsLoop p inUseOnly (i + 1)             -- 1336
        else if f.isBaseFileRecordSegment then
          match p.assemble f with
          | .error e => .fail e
          | .ok r => .cons r (fileRecordsLoop p inUseOnly (i + 1))
        else fileRecordsLoop p inUseOnly (i + 1)
  else .done
termination_by p.file.length - i * p.size
decreasing_by all_goals (rw [Nat.add_mul]; omega)

/-- dfir_ntfs/MFT.py:1319-1364 `file_records`. -/
def Parser.fileRecords (p : Parser) (inUseOnly : Bool := false) : Gen FileRecord := fileRecordsLoop p inUseOnly 0

/-! ### Paths -/

/-- dfir_ntfs/MFT.py:35 `FILE_NUMBER_ROOT`. -/
def fileNumberRoot : Nat := 5
/-- dfir_ntfs/MFT.py:15-16. -/
def pathSeparator : Str := Str.ofString "/"
/-- dfir_ntfs/MFT.py:16. -/
def unknownPathPlaceholder : Str := Str.ofString "<Orphan>"

/-- `flags & FILE_NAME_NTFS > 0 or flags == 0` (dfir_ntfs/MFT.py:1189 and 1212; `FILE_NAME_NTFS = 1`). -/
def preferredFlags (flags : Nat) : Bool := flags &&& 1 > 0 || flags == 0

/-- dfir_ntfs/MFT.py:1174-1183: the (flags, name, parent) tuples of the `$FILE_NAME` attributes; `err` is
the exception that ends the enumeration of the attributes. -/
def nameTuples (err : Option Exc) : List AttributeRecord → Except Exc (List (Nat × Str × Nat))
  | [] =>
    match err with
    | some e => .error e
    | none => .ok []
  | a :: rest =>
    match a.fileNameValue with                                                          -- 1175-1180
    | .error e => .error e
    | .ok none => nameTuples err rest
    | .ok (some v) =>
      match fileNameFlags v with                                                        -- 1183
      | .error e => .error e
      | .ok fl =>
        match fileNameName v with
        | .error e => .error e
        | .ok nm =>
          match fileNameParent v with
          | .error e => .error e
          | .ok pr =>
            match nameTuples err rest with
            | .error e => .error e
            | .ok ts => .ok ((fl, nm, pr) :: ts)

/-- dfir_ntfs/MFT.py:1171-1193 `get_preferred_file_name`: the name and the parent reference. -/
def preferredFileName (r : FileRecord) : Except Exc (Str × Nat) :=
  match nameTuples r.attributes.err r.attributes.items with
  | .error e => .error e
  | .ok [] => .error .MasterFileTableException                                          -- 1186
  | .ok (t :: ts) =>
    match (t :: ts).find? (fun x => preferredFlags x.1) with                            -- 1188-1190
    | some x => .ok x.2
    | none => .ok t.2                                                                   -- 1193-1194

/-- dfir_ntfs/MFT.py:1198-1215: the values of the `$FILE_NAME` attributes in the order in which paths
are built: `insert(0, …)` for the preferred name spaces, `append` for the others. -/
def orderNames (err : Option Exc) : List AttributeRecord → List Bytes → Except Exc (List Bytes)
  | [], acc =>
    match err with
    | some e => .error e
    | none => .ok acc
  | a :: rest, acc =>
    match a.fileNameValue with
    | .error e => .error e
    | .ok none => orderNames err rest acc
    | .ok (some v) =>
      match fileNameFlags v with                                                        -- 1210
      | .error e => .error e
      | .ok fl => orderNames err rest (if preferredFlags fl then v :: acc else acc ++ [v])

/-- `file_record.get_flags() & FILE_FILE_NAME_INDEX_PRESENT != 0`. -/
def FileRecord.isDirectory (r : FileRecord) : Bool := r.base.flags &&& 2 > 0

/-- dfir_ntfs/MFT.py:1244-1271, the loop that climbs to the root, at most `fuel` times (`none` when it
has not ended by then).  `components` is `path_components`. -/
def climbLoop (p : Parser) : Nat → List Nat → FileRecord → List Str → Option (Except Exc (List Str))
  | 0, _, _, _ => none
  | fuel + 1, track, current, components =>
    match preferredFileName current with                                                -- 1245
    | .error e => some (.error e)
    | .ok (name, ref) =>
      let d := decodeFileRecordSegmentReference ref                                     -- 1246
      let components := components ++ [name]                                            -- 1248
      if d.1 ∈ track then some (.ok (components ++ [unknownPathPlaceholder]))           -- 1250-1253
      else
        match p.getBaseRecord d.1 (some d.2) with                                       -- 1258
        | .error e =>
          if isMftExc e then some (.ok (components ++ [unknownPathPlaceholder]))        -- 1259-1262
          else some (.error e)
        | .ok next =>
          if d.1 = fileNumberRoot then some (.ok (components ++ [[]]))                  -- 1264-1266
          else if ¬ next.isDirectory then some (.ok (components ++ [unknownPathPlaceholder]))  -- 1268-1271
          else climbLoop p fuel (d.1 :: track) next components                          -- 1255

/-- dfir_ntfs/MFT.py:1217-1277, the path for one `$FILE_NAME` value. -/
def buildPath (p : Parser) (fuel : Nat) (v : Bytes) : Option (Except Exc Str) :=
  match fileNameName v with                                                             -- 1218
  | .error e => some (.error e)
  | .ok name =>
    match fileNameParent v with                                                         -- 1219
    | .error e => some (.error e)
    | .ok ref =>
      let d := decodeFileRecordSegmentReference ref
      let finish (components : List Str) : Str := pyJoin pathSeparator components.reverse  -- 1273-1276
      if d.1 = fileNumberRoot then some (.ok (finish [name, []]))                       -- 1222-1231
      else
        match p.getBaseRecord d.1 (some d.2) with                                       -- 1234
        | .error e =>
          if isMftExc e then some (.ok (finish [name, unknownPathPlaceholder]))         -- 1235-1237
          else some (.error e)
        | .ok parent =>
          if ¬ parent.isDirectory then some (.ok (finish [name, unknownPathPlaceholder]))  -- 1239-1241
          else
            match climbLoop p fuel [d.1] parent [name] with
            | none => none
            | some (.error e) => some (.error e)
            | some (.ok components) => some (.ok (finish components))

/-- dfir_ntfs/MFT.py:1217-1279: the paths, with the values they are for (as returned for
`include_attributes = True`). -/
def buildPaths (p : Parser) (fuel : Nat) : List Bytes → Option (Except Exc (List (Str × Bytes)))
  | [] => some (.ok [])
  | v :: rest =>
    match buildPath p fuel v with
    | none => none
    | some (.error e) => some (.error e)
    | some (.ok path) =>
      match buildPaths p fuel rest with
      | none => none
      | some (.error e) => some (.error e)
      | some (.ok l) => some (.ok ((path, v) :: l))

/-- dfir_ntfs/MFT.py:1165-1279 `build_full_paths`, with a bound on the number of steps of each climb:
one more than the number of segments that can be read. -/
def Parser.buildFullPaths (p : Parser) (r : FileRecord) : Option (Except Exc (List (Str × Bytes))) :=
  match orderNames r.attributes.err r.attributes.items [] with
  | .error e => some (.error e)
  | .ok vs => buildPaths p (p.file.length / p.size + 2) vs

/-- dfir_ntfs/MFT.py:1108: `path.split('/')`. -/
def splitPath : Str → List Str
  | [] => [[]]
  | c :: rest =>
    if c = 0x2F then [] :: splitPath rest
    else
      match splitPath rest with
      | [] => [[c]]
      | s :: ss => (c :: s) :: ss

/-- The comparison of names at dfir_ntfs/MFT.py:1089-1092: `upper` is `str.upper`, which is not modelled
(theorems hold for every function). -/
def namesEqual (upper : Str → Str) (caseSensitive : Bool) (a b : Str) : Bool :=
  if caseSensitive then a == b else upper a == upper b

/-- dfir_ntfs/MFT.py:1078-1092 `compare_name_against_file_record`: the parent reference of the first
name that is equal. -/
def compareNameLoop (eq : Str → Str → Bool) (name : Str) (err : Option Exc) : List AttributeRecord → Except Exc (Option Nat)
  | [] =>
    match err with
    | some e => .error e
    | none => .ok none
  | a :: rest =>
    match a.fileNameValue with
    | .error e => .error e
    | .ok none => compareNameLoop eq name err rest
    | .ok (some v) =>
      match fileNameName v with
      | .error e => .error e
      | .ok nm =>
        if eq nm name then (fileNameParent v).map some
        else compareNameLoop eq name err rest

/-- dfir_ntfs/MFT.py:1078-1092. -/
def compareName (eq : Str → Str → Bool) (name : Str) (r : FileRecord) : Except Exc (Option Nat) :=
  compareNameLoop eq name r.attributes.err r.attributes.items

/-- dfir_ntfs/MFT.py:1115-1132, the loop that collects the candidates. -/
def candidatesLoop (p : Parser) (eq : Str → Str → Bool) (last : Str) (mustBeDirectory : Bool) (i : Nat) :
    Except Exc (List (Nat × FileRecord)) :=
  if i * p.size < p.file.length ∧ 0 < p.size then
    match p.getBaseRecord i none with                                                   -- 1118
    | .error e => if isMftExc e then candidatesLoop p eq last mustBeDirectory (i + 1) else .error e
    | .ok r =>
      match compareName eq last r with                                                  -- 1122
      | .error e => .error e
      | .ok parent =>
        match candidatesLoop p eq last mustBeDirectory (i + 1) with
        | .error e => .error e
        | .ok cs =>
          match parent with
          | some pr => if r.base.isInUse ∧ (mustBeDirectory → r.isDirectory) then .ok ((pr, r) :: cs) else .ok cs  -- 1123-1130
          | none => .ok cs
  else .ok []
termination_by p.file.length - i * p.size
decreasing_by all_goals (rw [Nat.add_mul]; omega)

/-- dfir_ntfs/MFT.py:1142-1163: does the chain of parents of a candidate match the components (given
from the last one up)? -/
def matchParents (p : Parser) (eq : Str → Str → Bool) : List Str → Nat → Except Exc Bool
  | components, ref =>
    let d := decodeFileRecordSegmentReference ref                                       -- 1145
    if d.1 = fileNumberRoot then .ok (components.isEmpty)                               -- 1146-1151
    else
      match p.getBaseRecord d.1 (some d.2) with                                         -- 1154
      | .error e => if isMftExc e then .ok false else .error e                          -- 1155
      | .ok r =>
        match components with
        | [] => .ok false                                                               -- 1160
        | c :: rest =>
          match compareName eq c r with                                                 -- 1162
          | .error e => .error e
          | .ok none => .ok false
          | .ok (some ref') => matchParents p eq rest ref'

/-- dfir_ntfs/MFT.py:1141-1163: the first candidate whose chain of parents matches. -/
def firstMatch (p : Parser) (eq : Str → Str → Bool) (components : List Str) : List (Nat × FileRecord) → Except Exc (Option FileRecord)
  | [] => .ok none
  | (ref, r) :: rest =>
    match matchParents p eq components ref with
    | .error e => .error e
    | .ok true => .ok (some r)
    | .ok false => firstMatch p eq components rest

/-- dfir_ntfs/MFT.py:1072-1163 `get_file_record_by_path`. -/
def Parser.getRecordByPath (upper : Str → Str) (p : Parser) (path : Str) (caseSensitive : Bool := false) :
    Except Exc (Option FileRecord) :=
  if path.length = 0 then .error .MasterFileTableException                              -- 1097
  else if path.head? ≠ some 0x2F ∨ path = Str.ofString "//" then .error .MasterFileTableException  -- 1100
  else
    let mustBeDirectory : Bool := path.length > 1 ∧ path.getLast? = some 0x2F            -- 1104
    let path := if mustBeDirectory then path.dropLast else path
    if path = Str.ofString "/" then (p.getRecord fileNumberRoot).map some               -- 1108
    else
      let components := splitPath path                                                  -- 1111
      let last := components.getLast?.getD []                                           -- 1112
      match candidatesLoop p (namesEqual upper caseSensitive) last mustBeDirectory 0 with
      | .error e => .error e
      | .ok cs =>
        let components := ((components.drop 1).dropLast).reverse                        -- 1135-1136
        if [] ∈ components ∨ Str.ofString "." ∈ components ∨ Str.ofString ".." ∈ components then
          .error .MasterFileTableException                                              -- 1138
        else firstMatch p (namesEqual upper caseSensitive) components cs

end Verif.MFT
