/-
Model of dfir_ntfs/MFT.py:739-913: `FileRecord` (a base file record segment and its children).
-/
import Verif.Model.MFT.FileRecordSegment
import Verif.Basic.Sort
import Verif.Basic.Utf16
namespace Verif.MFT

/-- dfir_ntfs/MFT.py:742-744. -/
structure FileRecord where
  base : FileRecordSegment
  children : List FileRecordSegment
  deriving DecidableEq, Repr

/-- The generator `FileRecordSegment.attributes` (dfir_ntfs/MFT.py:375-459), seen by its consumer. -/
def FileRecordSegment.attributesGen (f : FileRecordSegment) : Gen AttributeRecord :=
  ⟨f.attributes.items.map (·.attr), f.attributes.err⟩

/-- dfir_ntfs/MFT.py:763-769 `attributes(False)`. -/
def FileRecord.attributes (fr : FileRecord) : Gen AttributeRecord :=
  (fr.base :: fr.children).foldr (fun f rest => f.attributesGen.append rest) .done

/-- dfir_ntfs/MFT.py:746-756 `slack()`: the slack of each segment that has some. -/
def FileRecord.slack (fr : FileRecord) : Gen Bytes :=
  (fr.base :: fr.children).foldr (fun f rest =>
    match f.slack with
    | .error e => .fail e
    | .ok none => rest
    | .ok (some s) => .cons s rest) .done

/-- The decoded name of an attribute (`attr.name`, dfir_ntfs/MFT.py:413). -/
def AttributeRecord.name : AttributeRecord → Option Str
  | .resident _ name _ => name.map utf16Decode
  | .nonresident _ name _ _ _ _ _ => name.map utf16Decode

/-- dfir_ntfs/MFT.py:485-598: `attr.type_code`. -/
def AttributeRecord.typeCode : AttributeRecord → Nat
  | .resident t _ _ => t
  | .nonresident t _ _ _ _ _ _ => t

/-- dfir_ntfs/MFT.py:812-862: The fields of a nonresident attribute record that `get_data_runs` uses. -/
structure Extent where
  lowestVcn : Nat
  highestVcn : Nat
  fileSize : Int
  mappingPairs : Bytes
  deriving DecidableEq, Repr

/-- dfir_ntfs/Attributes.py:22, 24. -/
def attrTypeData : Nat := 0x80
/-- dfir_ntfs/Attributes.py:24. -/
def attrTypeIndexAllocation : Nat := 0xA0

/-- dfir_ntfs/MFT.py:819-820: an empty attribute name means no name. -/
def normalizeName (name : Option Str) : Option Str := if name = some [] then none else name

/-- dfir_ntfs/MFT.py:824-834: does this attribute record belong to the requested data?  (For a name
that is not `None`, line 833 compares the strings; a record without a name has the name `None`,
which is equal to the requested name only if that is `None` too.) -/
def matchExtent (name : Option Str) (useIndex : Bool) (a : AttributeRecord) : Option Extent :=
  match a with
  | .resident _ _ _ => none
  | .nonresident t n pairs lo hi fs _ =>
    if t = (if useIndex then attrTypeIndexAllocation else attrTypeData) ∧ n.map utf16Decode = name then
      some ⟨lo, hi, fs, pairs⟩
    else none

/-- dfir_ntfs/MFT.py:845-862: the loop over the sorted extents. -/
def assembleLoop : List Extent → Option Int → Int → List Run → Except Exc (List Run)
  | [], fileSize, _, runs =>
    match fileSize with
    | none => .error .AttributeException                                             -- 856-857
    | some fs => if fs > 0 ∧ runs.length = 0 then .error .MappingPairsException      -- 859-860
      else .ok runs
  | a :: rest, fileSize, touched, runs =>
    if (a.lowestVcn : Int) ≠ touched then .error .MappingPairsException              -- 849-850
    else
      match decodeMappingPairs a.mappingPairs with
      | .error e => .error e
      | .ok rs => assembleLoop rest
          (if fileSize = none ∧ a.lowestVcn = 0 then some a.fileSize else fileSize)  -- 846-847
          (touched + (rs.map (·.2)).sum) (runs ++ rs)                                -- 852-854

/-- dfir_ntfs/MFT.py:812-862 `get_data_runs`. -/
def FileRecord.getDataRuns (fr : FileRecord) (name : Option Str := none) (useIndex : Bool := false) :
    Except Exc (Option (List Run)) :=
  match fr.attributes.err with
  | some e => .error e
  | none =>
    let extents := fr.attributes.items.filterMap (matchExtent (normalizeName name) useIndex)
    if extents.length = 0 then .ok none                                              -- 836-837
    else (assembleLoop (sortBy (fun e => (e.lowestVcn : Int)) extents) none 0 []).map some

/-- dfir_ntfs/MFT.py:864-885 `get_data_size`: the first matching extent with the lowest VCN 0, if it
comes before the exception that ends the enumeration. -/
def FileRecord.getDataSize (fr : FileRecord) (name : Option Str := none) (useIndex : Bool := false) :
    Except Exc (Option Int) :=
  match (fr.attributes.items.filterMap (matchExtent (normalizeName name) useIndex)).find? (·.lowestVcn = 0) with
  | some e => .ok (some e.fileSize)
  | none =>
    match fr.attributes.err with
    | some e => .error e
    | none => .ok none

end Verif.MFT
