import Verif.Model.ExFAT.Parser
import Verif.Model.ExFAT.Fields
open Verif
def loadBytes (p : String) : IO Bytes := do
  let b ← IO.FS.readBinFile p
  return b.toList
def hx (b : Bytes) : String := String.join (b.map fun x => let n := x.toNat; (Nat.digitChar (n / 16)).toString ++ (Nat.digitChar (n % 16)).toString)
def st (s : Str) : String := String.join (s.map fun c => (Char.ofNat c).toString)
def exS {α} (f : α → String) : Except Exc α → String
  | .ok a => f a
  | .error e => s!"!{repr e}"
def opS {α} (f : α → String) : Option α → String
  | some a => f a
  | none => "None"
open Verif.ExFAT
open Verif.FAT (DateTime)
def p2 (n : Nat) : String := if n < 10 then s!"0{n}" else s!"{n}"
def dts : Option DateTime → String
  | none => "None"
  | some d => s!"{d.date.year}-{p2 d.date.month}-{p2 d.date.day} {p2 d.time.hour}:{p2 d.time.minute}:{p2 d.time.second}|{d.microsecond}"
def items (l : List Item) (v : Option Volume) : IO Unit := do
  for i in l do
    match i with
    | .orphan n => IO.println s!"O\t{st n}"
    | .label n => IO.println s!"L\t{st n}"
    | .bitmap a b c => IO.println s!"B\t{a}\t{b}\t{c}"
    | .file e =>
      let data := match v with
        | some v => if e.isDirectory || e.isDeleted then "-" else exS hx (v.toHeap.readChain e.firstCluster (some e.size) e.noFatChain)
        | none => "-"
      let al := match v with
        | some v => exS (fun x => s!"{repr x}") (v.bitmap.isAllocated e.firstCluster)
        | none => "-"
      IO.println s!"F\t{st e.name}\t{e.isDirectory}\t{e.isDeleted}\t{dts e.mtime}\t{dts e.atime}\t{dts e.ctime}\t{repr e.mtz}\t{repr e.atz}\t{repr e.ctz}\t{e.size}\t{e.validDataLength}\t{e.firstCluster}\t{e.isEncrypted}\t{e.noFatChain}\t{al}\t{data}"
def main (args : List String) : IO Unit := do
  let b ← loadBytes args[1]!
  match args[0]! with
  | "vol" =>
    let off := args[2]!.toNat!
    let size := if args[3]! == "-" then none else some args[3]!.toNat!
    match openVolume b off size with
    | .error e => IO.println s!"FAIL {repr e}"
    | .ok v =>
      IO.println s!"OPEN {v.backupUsed} {v.br.volumeSerialNumber}"
      match v.walk (args[4]! == "1") id 1000 with
      | none => IO.println "fuel"
      | some g => items g.items (if args[5]! == "1" then some v else none); IO.println s!"END {g.items.length} {repr g.err}"
  | "dir" =>
    let b := b ++ zeros args[3]!.toNat!
    let g := listDirectory (args[2]! == "1") b
    items g.items none; IO.println s!"END {g.items.length} {repr g.err}"
  | "misc" =>
    let d := args[1]!
    let d := (d.dropEnd 12).toString
    for (a, n) in [(0, 12), (12, 12), (0, 24)] do
      let x := slice b (a*512) (a*512+n*512)
      match openBR x with
      | .error e => IO.println s!"BR FAIL {repr e}"
      | .ok r =>
        IO.println s!"{hx r.jmpBoot} {hx r.fsName} {r.mustBeZero.all (· == 0)} {r.partitionOffset} {r.volumeLength} {r.fatOffset} {r.fatLength} {r.clusterHeapOffset} {r.clusterCount} {r.firstClusterOfRootDirectory} {r.volumeSerialNumber} {r.fileSystemRevision} {r.volumeFlags} {repr r.bytesPerSector.toOption} {repr r.sectorsPerCluster.toOption} {r.numberOfFats} {r.driveSelect} {r.percentInUse} {hx r.reserved} {r.bootCode.all (· == 0)} {hx r.signature}"
        for i in List.range 10 do IO.println s!" ebs {i} {exS hx (r.ebsSignature i)}"
        IO.println s!" {exS hx r.oemGuid} {repr r.checksum.toOption} {repr r.calculateChecksum.toOption} {exS (fun x => s!"{repr x}") r.oemFlashParameters}"
    IO.println s!"short {exS (fun _ => "ok") (openBR (List.replicate 511 1))}"
    let f ← loadBytes (d ++ "exfat_fat.bin")
    match openTable f 0 65536 (0x3EE0 + 1) with
    | .error e => IO.println s!"{repr e}"
    | .ok t =>
      IO.println s!"{exS (fun x => s!"{x}") t.mediaType} {exS (fun x => s!"{x}") (t.getElement 0x3EE0)} {exS (fun x => s!"{x}") (t.getElement 0x3EE1)} {exS (fun x => s!"{x}") (t.getElement 0x3EE2)} {exS (fun x => s!"{repr x}") (t.chain 3)} {exS (fun x => s!"{repr x}") (t.chain 0x3EE1)} {exS (fun x => s!"{repr x}") (t.chain 0x3EE2)}"
    let dd ← loadBytes (d ++ "exfat_dir.bin")
    IO.println s!"{exS (fun x => s!"{x}") (entrySetChecksum (slice dd 384 (384+608)))} {0x9747}"
    let bm ← loadBytes (d ++ "exfat_bm.bin")
    let m : Bitmap := ⟨bm, 0x3EE0 + 1⟩
    let ok := (List.range (0x3EE0 + 5)).all fun i => match m.isAllocated i with
      | .ok r => r == (if i < 2 then none else if i < 20 then some true else if i > 0x3EE0 + 1 then none else some false)
      | .error _ => false
    IO.println s!"bm {ok}"
    let tz := ((List.range 0x40).all fun i => decodeFATTimezone (i + 0x80) == some (i : Int)) && ((List.range 0x40).all fun i => decodeFATTimezone (i + 0x40 + 0x80) == some (-64 + (i : Int))) && decodeFATTimezone 0 == none && decodeFATTimezone 1 == none
    IO.println s!"tz {tz}"
  | _ => pure ()
