/-
Small master file tables for the examples of C16-C20 (they only show that the theorems are not vacuous).
-/
import Verif.Model.MFT.Parser
namespace Verif.MFT

/-- A resident attribute record. -/
def mkAttr (type : Nat) (value : Bytes) : Bytes :=
  natLE 4 type ++ natLE 4 (24 + (value.length + 7) / 8 * 8) ++ [0, 0, 24, 0, 0, 0, 0, 0] ++ natLE 4 value.length ++ [24, 0, 0, 0] ++
    value ++ zeros ((value.length + 7) / 8 * 8 - value.length)

/-- A file name with the parent `number`/`seq`. -/
def mkName (number seq flags : Nat) (name : String) : Bytes :=
  natLE 6 number ++ natLE 2 seq ++ zeros 56 ++ [UInt8.ofNat name.toList.length, UInt8.ofNat flags] ++
    name.toList.flatMap fun c => natLE 2 c.toNat

/-- A file record segment of 1024 bytes. -/
def mkSegment (number seq flags baseNumber baseSeq : Nat) (attrs : List Bytes) : Bytes :=
  let body := attrs.flatten ++ [0xFF, 0xFF, 0xFF, 0xFF, 0, 0, 0, 0]
  [0x46, 0x49, 0x4C, 0x45, 48, 0, 3, 0] ++ zeros 8 ++ natLE 2 seq ++ [1, 0, 56, 0] ++ natLE 2 flags ++ natLE 4 (56 + body.length) ++
    natLE 4 1024 ++ natLE 6 baseNumber ++ natLE 2 baseSeq ++ [0, 0, 0, 0] ++ natLE 4 number ++ zeros 8 ++ body ++
    zeros (1024 - 56 - body.length)

def volumeSegment : Bytes := mkSegment 3 3 1 0 0 [mkAttr 0x70 (zeros 8 ++ [3, 1, 0, 0])]
def rootSegment : Bytes := mkSegment 5 5 3 0 0 [mkAttr 0x30 (mkName 5 5 3 ".")]
def plainSegment (n : Nat) : Bytes := mkSegment n 1 1 0 0 []

/-- `/d/f` with the names of `f` in two segments (6 and 8); `dirFlags` are those of the directory `d` (7). -/
def sampleTable (dirFlags : Nat) : Bytes :=
  [plainSegment 0, plainSegment 1, plainSegment 2, volumeSegment, plainSegment 4, rootSegment,
    mkSegment 6 2 1 0 0 [mkAttr 0x30 (mkName 7 4 1 "f")],
    mkSegment 7 (if dirFlags % 2 = 1 then 4 else 5) dirFlags 0 0 [mkAttr 0x30 (mkName 5 5 2 "D~1"), mkAttr 0x30 (mkName 5 5 1 "d")],
    mkSegment 8 1 1 6 2 [mkAttr 0x30 (mkName 5 5 0 "g")]].flatten

/-- Directories 6 and 7 are each other's parent. -/
def cyclicTable : Bytes :=
  [plainSegment 0, plainSegment 1, plainSegment 2, volumeSegment, plainSegment 4, rootSegment,
    mkSegment 6 1 3 0 0 [mkAttr 0x30 (mkName 7 1 1 "a")], mkSegment 7 1 3 0 0 [mkAttr 0x30 (mkName 6 1 1 "b")]].flatten

end Verif.MFT
