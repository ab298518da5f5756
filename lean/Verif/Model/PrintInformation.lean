/-
Model of the methods `print_information` of dfir_ntfs/Attributes.py and dfir_ntfs/WSL.py: the lines that are printed, in order, and the exception that
ends the printing, if any.  (What the terminal makes of a line is not modelled.)
-/
import Verif.Model.AttributeFields
import Verif.Model.WSL
import Verif.Model.USN
import Verif.Model.Scripts.Move
import Verif.Model.Scripts.Mem
namespace Verif.Print
open Verif.Attributes Verif.Scripts
open Verif.USN (pyHex)

/-! ### Values as text -/

/-- `'{}'.format(…)` of a `datetime` or `None` (dfir_ntfs/Attributes.py:344-347): microseconds since `epoch`. -/
def moment (epoch : Nat) : Option Nat → Str
  | none => Str.ofString "None"
  | some t => strDatetime (epoch + t)

/-- `'{}'.format(…)` of an integer or `None` (dfir_ntfs/Attributes.py:352-354). -/
def optional : Option Nat → Str
  | none => Str.ofString "None"
  | some n => decimal n

/-- `'{}'.format(…)` of a truth value (dfir_ntfs/Attributes.py:349, 996). -/
def truth (b : Bool) : Str := Str.ofString (if b then "True" else "False")

/-- `print(label.format(value))` (dfir_ntfs/Attributes.py:344 and the other lines): nothing is printed when the value cannot be had. -/
def shown (label : String) (value : Except Exc Str) (rest : Gen Str) : Gen Str :=
  match value with
  | .error e => .fail e
  | .ok s => .cons (Str.ofString label ++ s) rest

/-- Two values in a line, with a comma (dfir_ntfs/Attributes.py:348 and other lines). -/
def pair (x y : Except Exc Str) : Except Exc Str :=
  match x with
  | .error e => .error e
  | .ok a => match y with | .error e => .error e | .ok b => .ok (a ++ Str.ofString ", " ++ b)

/-- A line without values (dfir_ntfs/Attributes.py:343). -/
def title (s : String) (rest : Gen Str) : Gen Str := .cons (Str.ofString s) rest

/-! ### UTF-8 -/

/-- A continuation byte (`bytes.decode('utf-8', errors = 'replace')`, dfir_ntfs/Attributes.py:1074). -/
def isContinuation (b : UInt8) : Bool := decide (0x80 ≤ b.toNat ∧ b.toNat < 0xC0)

/-- The bytes that can follow the first byte of a sequence (the same call): no overlong forms, no surrogates, nothing above U+10FFFF. -/
def isSecond (a b : UInt8) : Bool :=
  isContinuation b && decide ((a.toNat = 0xE0 → 0xA0 ≤ b.toNat) ∧ (a.toNat = 0xED → b.toNat < 0xA0) ∧ (a.toNat = 0xF0 → 0x90 ≤ b.toNat) ∧
    (a.toNat = 0xF4 → b.toNat < 0x90))

/-- `bytes.decode('utf-8', errors = 'replace')` (dfir_ntfs/Attributes.py:1074): U+FFFD for each byte that cannot start a sequence, and for each longest
beginning of a sequence that is not continued. -/
def utf8Replace : Bytes → Str
  | [] => []
  | a :: rest =>
    if a.toNat < 0x80 then a.toNat :: utf8Replace rest
    else if a.toNat < 0xC2 ∨ 0xF5 ≤ a.toNat then 0xFFFD :: utf8Replace rest
    else
      match rest with
      | [] => [0xFFFD]
      | b :: rest1 =>
        if isSecond a b = false then 0xFFFD :: utf8Replace (b :: rest1)
        else if a.toNat < 0xE0 then ((a.toNat - 0xC0) * 64 + (b.toNat - 0x80)) :: utf8Replace rest1
        else
          match rest1 with
          | [] => [0xFFFD]
          | c :: rest2 =>
            if isContinuation c = false then 0xFFFD :: utf8Replace (c :: rest2)
            else if a.toNat < 0xF0 then (((a.toNat - 0xE0) * 64 + (b.toNat - 0x80)) * 64 + (c.toNat - 0x80)) :: utf8Replace rest2
            else
              match rest2 with
              | [] => [0xFFFD]
              | d :: rest3 =>
                if isContinuation d = false then 0xFFFD :: utf8Replace (d :: rest3)
                else ((((a.toNat - 0xF0) * 64 + (b.toNat - 0x80)) * 64 + (c.toNat - 0x80)) * 64 + (d.toNat - 0x80)) :: utf8Replace rest3

/-! ### The attributes -/

/-- dfir_ntfs/Attributes.py:340-355 `StandardInformation.print_information`. -/
def standardInformation (v : Bytes) : Gen Str :=
  title "$STANDARD_INFORMATION:" <|
  shown " File created: " ((siCtime v).map (moment epoch1601)) <|
  shown " File modified: " ((siMtime v).map (moment epoch1601)) <|
  shown " File last accessed: " ((siAtime v).map (moment epoch1601)) <|
  shown " $MFT entry modified: " ((siEtime v).map (moment epoch1601)) <|
  shown " File attributes: " ((siFileAttributes v).map pyHex) <|
  shown " Current version, maximum versions: " (pair ((siVersionNumber v).map decimal) ((siMaximumVersions v).map decimal)) <|
  shown " Is case sensitive: " ((siCaseSensitive v).map truth) <|
  shown " Storage reserve ID: " ((siStorageReserveId v).map decimal) <|
  shown " Known folder tag: " ((siKnownFolder v).map decimal) <|
  shown " Class ID, owner ID, security ID: "
    (pair ((siClassId v).map decimal) (pair (.ok (optional (siOwnerId v))) (.ok (optional (siSecurityId v))))) <|
  shown " Quota charged: " (.ok (optional (siQuotaCharged v))) <|
  shown " Update sequence number: " (.ok (optional (siUsn v))) .done

/-- dfir_ntfs/Attributes.py:479-492 `FileName.print_information`. -/
def fileName (v : Bytes) : Gen Str :=
  title "$FILE_NAME:" <|
  shown " Parent directory: " ((fileNameParent v).map decimal) <|
  shown " File created: " ((diCtime (fileNameInformation v)).map (moment epoch1601)) <|
  shown " File modified: " ((diMtime (fileNameInformation v)).map (moment epoch1601)) <|
  shown " File last accessed: " ((diAtime (fileNameInformation v)).map (moment epoch1601)) <|
  shown " $MFT entry modified: " ((diEtime (fileNameInformation v)).map (moment epoch1601)) <|
  shown " Allocated length, file size: "
    (pair ((diAllocatedLength (fileNameInformation v)).map signedDecimal) ((diFileSize (fileNameInformation v)).map signedDecimal)) <|
  shown " File attributes: " ((diFileAttributes (fileNameInformation v)).map pyHex) <|
  shown " Packed EA size, unpacked EA size difference: "
    (pair ((diPackedEaSize (fileNameInformation v)).map decimal) ((diUnpackedEaSizeDifference (fileNameInformation v)).map decimal)) <|
  shown " Flags: " ((fileNameFlags v).map pyHex) <|
  shown " File name (decoded): " (fileNameName v) .done

/-- dfir_ntfs/Attributes.py:518-525 `ObjectID.print_information`. -/
def objectID (v : Bytes) : Gen Str :=
  title "$OBJECT_ID:" <|
  shown " GUID: " (.ok (match objectId v with | none => Str.ofString "None" | some g => guidText g)) <|
  shown " GUID timestamp: " (.ok (moment epoch1582 (objectIdTimestamp v))) <|
  if (objectIdExtra v).length > 0 then title " Extra data is set" .done else .done

/-- dfir_ntfs/Attributes.py:530-537 `Data.print_information`. -/
def data : Option Bytes → Gen Str
  | some v => title "$DATA:" <| shown " Length (bytes): " (.ok (decimal v.length)) .done
  | none => title "$DATA" .done

/-- dfir_ntfs/Attributes.py:592-601: the loop of `AttributeList.print_information`; `i` is the number of the next entry. -/
def listLines (i : Nat) : List AttributeListEntry → List Str
  | [] => []
  | e :: rest =>
    (Str.ofString " Attribute #" ++ decimal i ++ Str.ofString " type code: " ++ pyHex e.typeCode ++ Str.ofString ", " ++
      (match e.name with | none => Str.ofString "no name" | some n => Str.ofString "name: " ++ n)) ::
    (Str.ofString " Attribute #" ++ decimal i ++ Str.ofString " instance: " ++ decimal e.instanceNumber ++ Str.ofString ", lowest VCN: " ++
      decimal e.lowestVcn ++ Str.ofString ", segment reference: " ++ decimal e.segmentReference) ::
    listLines (i + 1) rest

/-- dfir_ntfs/Attributes.py:586-609 `AttributeList.print_information`. -/
def attributeList (v : Bytes) : Gen Str :=
  title "$ATTRIBUTE_LIST:" <|
  Gen.append ⟨listLines 1 (attributeListEntries v), none⟩ <|
  title "" <|
  shown "Last compacted size (in bytes): "
    ((lastCompactedSize v).map fun | none => Str.ofString "not set" | some n => decimal n) .done

/-- dfir_ntfs/Attributes.py:614-618 `SecurityDescriptor.print_information`. -/
def securityDescriptor (v : Bytes) : Gen Str :=
  title "$SECURITY_DESCRIPTOR:" <| shown " Length (bytes): " (.ok (decimal v.length)) .done

/-- dfir_ntfs/Attributes.py:628-632 `VolumeName.print_information`. -/
def printVolumeName (v : Bytes) : Gen Str :=
  title "$VOLUME_NAME:" <| shown " Volume name: " (.ok (volumeName v)) .done

/-- dfir_ntfs/Attributes.py:653-658 `VolumeInformation.print_information`. -/
def volumeInformation (v : Bytes) : Gen Str :=
  title "$VOLUME_INFORMATION:" <|
  shown " Version: " (match volumeMajor v with
    | .error e => .error e
    | .ok a => (volumeMinor v).map fun b => decimal a ++ Str.ofString "." ++ decimal b) <|
  shown " Flags: " ((volumeFlags v).map pyHex) .done

/-- dfir_ntfs/Attributes.py:799-818: the loop of `IndexRoot.print_information` over the entries: the lines, the VCNs, and the exception.  `header` says
that the header of the file names has not been printed yet. -/
def rootLines (header : Bool) : List IndexEntry → Gen Str × List Str
  | [] => (.done, [])
  | e :: rest =>
    match e.vcn with                                                                       -- 801
    | .error x => (.fail x, [])
    | .ok vcn =>
      match e.attribute with                                                               -- 809
      | .error x => (.fail x, [])
      | .ok a =>
        let v := match vcn with | some n => decimal n | none => Str.ofString "-"           -- 802-807
        match a with
        | some raw =>
          if raw.length > 66 then                                                          -- 810
            let r := rootLines false rest
            (Gen.append (if header then title "" (title "File names in the index:" .done) else .done) (Gen.append (fileName raw) r.1), v :: r.2)
          else
            let r := rootLines header rest
            (r.1, v :: r.2)
        | none =>
          let r := rootLines header rest
          (r.1, v :: r.2)

/-- dfir_ntfs/Attributes.py:780-822 `IndexRoot.print_information`. -/
def indexRoot (v : Bytes) : Gen Str :=
  title "$INDEX_ROOT:" <|
  shown " Indexed attribute type code: " ((indexRootType v).map pyHex) <|
  shown " Collation rule: " ((indexRootCollation v).map decimal) <|
  shown " Bytes and blocks per the index allocation buffer: " (pair ((indexRootBytes v).map decimal) ((indexRootBlocks v).map decimal)) <|
  title "" <|
  title "Index header:" <|
  shown " Relative offset to the first index entry: " ((indexHeaderFirst (indexRootHeader v)).map decimal) <|
  shown " Relative offset to the first free byte: " ((indexHeaderFree (indexRootHeader v)).map decimal) <|
  shown " Bytes available: " ((indexHeaderAvailable (indexRootHeader v)).map decimal) <|
  shown " Flags: " ((indexHeaderFlags (indexRootHeader v)).map pyHex) <|
  if indexRootType v = .ok 0x30 then                                                       -- 796
    let r := rootLines true (indexRootEntries v).items
    Gen.append r.1 <|
    match (indexRootEntries v).err with                                                    -- 800
    | some e => .fail e
    | none => if r.2.length > 0 then title "" (shown "Subnode VCN list: " (.ok (pyJoin [0x20] r.2)) .done) else .done
  else .done

/-- dfir_ntfs/Attributes.py:938-948 `IndexAllocation.print_information`, after the constructor: the contents of the file, and its size. -/
def indexAllocation (file : Bytes) : Gen Str :=
  match indexBufferSize file with
  | .error e => .fail e
  | .ok size =>
    title "$INDEX_ALLOCATION" <|
    shown " Bytes per index buffer: " (.ok (match size with | none => Str.ofString "unknown" | some n => decimal n)) <|
    shown " Length: " (.ok (decimal file.length)) .done

/-- dfir_ntfs/Attributes.py:953-957 `Bitmap.print_information`. -/
def bitmap (v : Bytes) : Gen Str :=
  title "$BITMAP:" <| shown " Length (bits): " (.ok (decimal (v.length * 8))) .done

/-- dfir_ntfs/Attributes.py:992-997 `ReparsePoint.print_information`. -/
def reparsePoint (v : Bytes) : Gen Str :=
  title "$REPARSE_POINT:" <|
  shown " Reparse tag: " (match reparseTag v with
    | .error e => .error e
    | .ok t => (reparseIsMicrosoft v).map fun m => pyHex t ++ Str.ofString " (is Microsoft: " ++ truth m ++ Str.ofString ")") <|
  shown " Reparse data length: " ((reparseDataLength v).map decimal) .done

/-- dfir_ntfs/Attributes.py:1017-1023 `EAInformation.print_information`. -/
def eaInformation (v : Bytes) : Gen Str :=
  title "$EA_INFORMATION:" <|
  shown " Packed EA size: " ((eaPackedSize v).map decimal) <|
  shown " Need EA count: " ((eaNeedCount v).map decimal) <|
  shown " Unpacked EA size: " ((eaUnpackedSize v).map decimal) .done

/-- dfir_ntfs/Attributes.py:1072-1078: the loop of `EA.print_information`; `i` is the number of the next extended attribute. -/
def eaLines (i : Nat) : List ExtendedAttribute → List Str
  | [] => []
  | e :: rest =>
    (Str.ofString " EA #" ++ decimal i ++ Str.ofString " name: " ++ utf8Replace e.name) ::
    (Str.ofString " EA #" ++ decimal i ++ Str.ofString " flags: " ++ pyHex e.flags) ::
    (Str.ofString " EA #" ++ decimal i ++ Str.ofString " value length (bytes): " ++ decimal e.value.length) :: eaLines (i + 1) rest

/-- dfir_ntfs/Attributes.py:1066-1078 `EA.print_information`. -/
def ea (v : Bytes) : Gen Str :=
  title "$EA:" <| shown " Length (bytes): " (.ok (decimal v.length)) ⟨eaLines 1 (eaParsed v), none⟩

/-- dfir_ntfs/Attributes.py:1083-1087 `LoggedUtilityStream.print_information`. -/
def loggedUtilityStream (v : Bytes) : Gen Str :=
  title "$LOGGED_UTILITY_STREAM:" <| shown " Length (bytes): " (.ok (decimal v.length)) .done

/-- dfir_ntfs/WSL.py:134-143 `LXATTRB.print_information`. -/
def lxattrb (v : Bytes) : Gen Str :=
  title "WSL metadata:" <|
  shown " Mode: " ((WSL.mode v).map pyHex) <|
  shown " UID/GID: " (match WSL.uid v with
    | .error e => .error e
    | .ok u => (WSL.gid v).map fun g => decimal u ++ Str.ofString "/" ++ decimal g) <|
  shown " Device ID: " ((WSL.rdev v).map pyHex) <|
  shown " File last accessed: " ((WSL.atime v).map fun t => moment epoch1970 (some t)) <|
  shown " File modified: " ((WSL.mtime v).map fun t => moment epoch1970 (some t)) <|
  shown " Inode changed: " ((WSL.chtime v).map fun t => moment epoch1970 (some t)) .done

end Verif.Print
