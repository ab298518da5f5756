/-
Small NTFS volumes for the examples of C82-C84 (they only show that the theorems are not vacuous).
-/
import Verif.Model.MFT.FileSystem
import Verif.Proof.SampleMFT
namespace Verif.MFT

/-- A boot sector: 512-byte clusters, 1024-byte file record segments, the `$MFT` file at `cluster`. -/
def mkBoot (cluster : Nat) : Bytes :=
  [0xEB, 0x52, 0x90, 0x4E, 0x54, 0x46, 0x53, 0x20, 0x20, 0x20, 0x20, 0, 2, 1] ++ zeros 34 ++ natLE 8 cluster ++ zeros 8 ++
    [0xF6, 0, 0, 0, 1] ++ zeros 443

/-- An unnamed nonresident attribute record of 72 bytes. -/
def mkExtent (type lowest highest size : Nat) (pairs : Bytes) : Bytes :=
  natLE 4 type ++ [72, 0, 0, 0, 1, 0, 0, 0, 0, 0, 0, 0] ++ natLE 8 lowest ++ natLE 8 highest ++ [64, 0] ++ zeros 6 ++
    natLE 8 size ++ natLE 8 size ++ natLE 8 size ++ pairs ++ zeros (8 - pairs.length)

/-- An unnamed entry of an attribute list. -/
def mkEntry (type lowest number seq : Nat) : Bytes :=
  natLE 4 type ++ [32, 0, 0, 26] ++ natLE 8 lowest ++ natLE 6 number ++ natLE 2 seq ++ zeros 8

/-- A volume of 14 clusters: the boot sector, the segments 0-4 of the `$MFT` file at the clusters 1-10, another
cluster, and the segment 5 at the clusters 12 and 13.  The extent of the segment 5 is in the segment 4. -/
def sampleVolume (pairs : Bytes) (entries : List Bytes) : Bytes :=
  [mkBoot 1,
    mkSegment 0 1 1 0 0 [mkAttr 0x20 entries.flatten, mkExtent 0x80 0 9 6144 pairs],
    plainSegment 1, plainSegment 2, volumeSegment,
    mkSegment 4 1 1 0 1 [mkExtent 0x80 10 11 0 [0x11, 2, 12, 0]],
    zeros 512, rootSegment].flatten

def sampleEntries : List Bytes := [mkEntry 0x80 10 4 1, mkEntry 0x10 0 0 1, mkEntry 0x80 0 0 1]

end Verif.MFT
