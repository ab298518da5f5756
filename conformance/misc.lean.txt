import Verif.Model.PartitionTable
import Verif.Model.USN
import Verif.Model.USNFields
import Verif.Model.BootSector
open Verif
def loadBytes (p : String) : IO Bytes := do
  let b ← IO.FS.readBinFile p
  return b.toList
def hx (b : Bytes) : String := String.join (b.map fun x => let n := x.toNat; (Nat.digitChar (n / 16)).toString ++ (Nat.digitChar (n % 16)).toString)
def st (s : Str) : String := String.join (s.map fun c => (Char.ofNat c).toString)
def exS {α} (f : α → String) : Except Exc α → String
  | .ok a => f a
  | .error e => s!"!{repr e}"
def opS {α} (f : α → String) : Option α → String
  | some a => f a
  | none => "None"
open Verif.PartitionTable
def n (x : Nat) : String := toString x
def pt (p : String) (ss : Nat) : IO Unit := do
  let b ← loadBytes p
  IO.println s!"== {p}"
  match GPT.init b ss with
  | .error e => IO.println s!"GPT {repr e}"
  | .ok g => match g.readHeader.1 with
    | .error e => IO.println s!"H {repr e}"
    | .ok h =>
      IO.println s!"H {repr h}"
      IO.println s!"P {exS (fun l => (repr l).pretty) (g.readPartitions h.partitionEntryLba h.numberOfPartitionEntries h.sizeOfPartitionEntry h.partitionEntryCrc32)}"
def mb (p : String) (ss : Nat) : IO Unit := do
  let b ← loadBytes p
  IO.println s!"== {p}"
  match MBR.init b ss with
  | .error e => IO.println s!"MBR {repr e}"
  | .ok m =>
    IO.println s!"{exS (fun x => (repr x).pretty) m.readMbr} {exS (fun x => (repr x).pretty) m.readPartitions} {exS (fun x => (repr x).pretty) (m.readEbrPartitions 1000)}"
def usn1 (p : String) : IO Unit := do
  let b ← loadBytes p
  match USN.getUsnRecord b with
  | .error e => IO.println s!"U {repr e}"
  | .ok r => IO.println s!"{p} v{exS n r.majorVersion} {exS st r.fileName} {exS n r.usn} attr={exS n r.fileAttributes} reason={exS n r.reason} {exS (fun c => st (USN.resolveReasonCodes c)) r.reason} ref={exS n r.fileReference} par={exS n r.parentReference} src={exS n r.sourceInfo} sec={exS n r.securityId} t={exS (opS n) r.timestamp} ext={exS n r.remainingExtents} {exS n r.numberOfExtents} {repr (r.extents.items)}"
def usnj (p : String) (gap : Nat) : IO Unit := do
  let b ← loadBytes p
  match USN.usnRecords (zeros gap ++ b) with
  | none => IO.println "fuel"
  | some g => IO.println s!"JEND {gap} {g.items.length} {repr g.err}"
def bs (p : String) : IO Unit := do
  let b ← loadBytes p
  match BootSector.init b with
  | .error e => IO.println s!"BS {repr e}"
  | .ok b => IO.println s!"{p} {exS n (BootSector.bytesPerSector b)} {exS n (BootSector.sectorsPerCluster b)} {exS n (BootSector.fileRecordSegmentSize b)} {exS n (BootSector.indexRecordSize b)} {exS n (BootSector.totalNumberOfSectors b)} {exS n (BootSector.firstMftCluster b)} {exS n (BootSector.firstMftMirrCluster b)} {BootSector.serialNumber b} {BootSector.isBootCodePresent b}"
def main : IO Unit := do
  let D := "/root/conf/data/"; let T := "/repo/test_data/"
  for g in [0, 8, 16, 4096, 8192, 8200, 512] do usnj (T ++ "usnjrnlj.bin") g
