/-
The on-disk structures of the attributes whose fields are read by single methods, written down as what an
implementation of NTFS writes (used to state C94 and C95).
-/
import Verif.Basic.Bytes
namespace Verif.Spec.Fields

/-- `STANDARD_INFORMATION`, as of NTFS 1.2 (48 bytes). -/
structure StandardInformation where
  created : Nat
  modified : Nat
  entryModified : Nat
  accessed : Nat
  fileAttributes : Nat
  maximumVersions : Nat
  versionNumber : Nat
  classId : Nat

/-- The part of `STANDARD_INFORMATION` added by NTFS 3.0 (24 more bytes). -/
structure StandardInformationExtension where
  ownerId : Nat
  securityId : Nat
  quotaCharged : Nat
  usn : Nat

def StandardInformation.encode (s : StandardInformation) : Bytes :=
  natLE 8 s.created ++ (natLE 8 s.modified ++ (natLE 8 s.entryModified ++ (natLE 8 s.accessed ++
  (natLE 4 s.fileAttributes ++ (natLE 4 s.maximumVersions ++ (natLE 4 s.versionNumber ++ natLE 4 s.classId))))))

def StandardInformationExtension.encode (x : StandardInformationExtension) : Bytes :=
  natLE 4 x.ownerId ++ (natLE 4 x.securityId ++ (natLE 8 x.quotaCharged ++ natLE 8 x.usn))

def StandardInformation.Fits (s : StandardInformation) : Prop :=
  s.created < 2 ^ 64 ∧ s.modified < 2 ^ 64 ∧ s.entryModified < 2 ^ 64 ∧ s.accessed < 2 ^ 64 ∧ s.fileAttributes < 2 ^ 32 ∧
  s.maximumVersions < 2 ^ 32 ∧ s.versionNumber < 2 ^ 32 ∧ s.classId < 2 ^ 32

def StandardInformationExtension.Fits (x : StandardInformationExtension) : Prop :=
  x.ownerId < 2 ^ 32 ∧ x.securityId < 2 ^ 32 ∧ x.quotaCharged < 2 ^ 64 ∧ x.usn < 2 ^ 64

/-- `DUPLICATED_INFORMATION` (56 bytes). -/
structure DuplicatedInformation where
  created : Nat
  modified : Nat
  entryModified : Nat
  accessed : Nat
  allocatedLength : Int
  fileSize : Int
  fileAttributes : Nat
  packedEaSize : Nat
  eaDifference : Nat

def DuplicatedInformation.encode (d : DuplicatedInformation) : Bytes :=
  natLE 8 d.created ++ (natLE 8 d.modified ++ (natLE 8 d.entryModified ++ (natLE 8 d.accessed ++
  (intLE 8 d.allocatedLength ++ (intLE 8 d.fileSize ++ (natLE 4 d.fileAttributes ++ (natLE 2 d.packedEaSize ++ natLE 2 d.eaDifference)))))))

def DuplicatedInformation.Fits (d : DuplicatedInformation) : Prop :=
  d.created < 2 ^ 64 ∧ d.modified < 2 ^ 64 ∧ d.entryModified < 2 ^ 64 ∧ d.accessed < 2 ^ 64 ∧
  (-2 ^ 63 ≤ d.allocatedLength ∧ d.allocatedLength < 2 ^ 63) ∧ (-2 ^ 63 ≤ d.fileSize ∧ d.fileSize < 2 ^ 63) ∧
  d.fileAttributes < 2 ^ 32 ∧ d.packedEaSize < 2 ^ 16 ∧ d.eaDifference < 2 ^ 16

/-- `FILE_NAME`: `name` is in UTF-16. -/
structure FileName where
  parent : Nat
  information : DuplicatedInformation
  flags : Nat
  name : Bytes

def FileName.encode (f : FileName) : Bytes :=
  natLE 8 f.parent ++ (f.information.encode ++ (natLE 1 (f.name.length / 2) ++ (natLE 1 f.flags ++ f.name)))

def FileName.Fits (f : FileName) : Prop :=
  f.parent < 2 ^ 64 ∧ f.information.Fits ∧ f.flags < 2 ^ 8 ∧ f.name.length % 2 = 0 ∧ f.name.length / 2 < 2 ^ 8

/-- A GUID of version 1 (RFC 4122), with its first three fields in little-endian order: a 60-bit time, the version, the
variant with six bits of the clock sequence, and seven more bytes. -/
def guidV1 (time clock : Nat) (node : Bytes) : Bytes :=
  natLE 4 (time % 2 ^ 32) ++ (natLE 2 (time / 2 ^ 32 % 2 ^ 16) ++ (natLE 2 (2 ^ 12 + time / 2 ^ 48) ++ (natLE 1 (2 ^ 7 + clock) ++ node)))

/-- An entry of a directory index: the attribute `stored` padded to a multiple of eight bytes, and the subnode, if there is one. -/
structure IndexEntry where
  fileReference : Nat
  stored : Bytes
  padding : Bytes
  subnode : Option Nat

def IndexEntry.length (e : IndexEntry) : Nat := 16 + e.stored.length + e.padding.length + (if e.subnode.isSome then 8 else 0)

def IndexEntry.encode (e : IndexEntry) : Bytes :=
  natLE 8 e.fileReference ++ (natLE 2 e.length ++ (natLE 2 e.stored.length ++ (natLE 2 (if e.subnode.isSome then 1 else 0) ++
  (natLE 2 0 ++ (e.stored ++ (e.padding ++ (match e.subnode with | some v => natLE 8 v | none => [])))))))

def IndexEntry.Fits (e : IndexEntry) : Prop :=
  e.fileReference < 2 ^ 64 ∧ e.length < 2 ^ 16 ∧ 0 < e.stored.length ∧ (∀ v, e.subnode = some v → v < 2 ^ 64)

/-- `INDEX_ROOT` without the entries: the index and the header of the node. -/
structure IndexRoot where
  attributeType : Nat
  collation : Nat
  bytesPerBuffer : Nat
  blocksPerBuffer : Nat
  firstEntry : Nat
  firstFree : Nat
  available : Nat
  flags : Nat

def IndexRoot.encode (r : IndexRoot) : Bytes :=
  natLE 4 r.attributeType ++ (natLE 4 r.collation ++ (natLE 4 r.bytesPerBuffer ++ (natLE 4 r.blocksPerBuffer ++
  (natLE 4 r.firstEntry ++ (natLE 4 r.firstFree ++ (natLE 4 r.available ++ (natLE 1 r.flags ++ zeros 3)))))))

def IndexRoot.Fits (r : IndexRoot) : Prop :=
  r.attributeType < 2 ^ 32 ∧ r.collation < 2 ^ 32 ∧ r.bytesPerBuffer < 2 ^ 32 ∧ r.blocksPerBuffer < 2 ^ 32 ∧ r.firstEntry < 2 ^ 32 ∧
  r.firstFree < 2 ^ 32 ∧ r.available < 2 ^ 32 ∧ r.flags < 2 ^ 8

/-- `REPARSE_DATA_BUFFER`: a tag without the highest bit comes with a GUID (16 bytes). -/
structure ReparsePoint where
  tag : Nat
  guid : Option Bytes
  data : Bytes

def ReparsePoint.encode (r : ReparsePoint) : Bytes :=
  natLE 4 r.tag ++ (natLE 2 r.data.length ++ (natLE 2 0 ++ (r.guid.getD [] ++ r.data)))

def ReparsePoint.Fits (r : ReparsePoint) : Prop :=
  r.tag < 2 ^ 32 ∧ r.data.length < 2 ^ 16 ∧ (r.guid = none ↔ r.tag.testBit 31 = true) ∧ (∀ g, r.guid = some g → g.length = 16)

/-- `EA_INFORMATION`. -/
def eaInformation (packed need unpacked : Nat) : Bytes := natLE 2 packed ++ (natLE 2 need ++ natLE 4 unpacked)

/-- `VOLUME_INFORMATION`. -/
def volumeInformation (major minor flags : Nat) : Bytes := zeros 8 ++ (natLE 1 major ++ (natLE 1 minor ++ natLE 2 flags))

end Verif.Spec.Fields
