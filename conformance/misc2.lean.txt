import Verif.Model.MoveTableFields
import Verif.Model.ShadowCopy.Fields
import Verif.Model.MFT.Carver
open Verif
def loadBytes (p : String) : IO Bytes := do
  let b ← IO.FS.readBinFile p
  return b.toList
def hx (b : Bytes) : String := String.join (b.map fun x => let n := x.toNat; (Nat.digitChar (n / 16)).toString ++ (Nat.digitChar (n % 16)).toString)
def st (s : Str) : String := String.join (s.map fun c => (Char.ofNat c).toString)
def exS {α} (f : α → String) : Except Exc α → String
  | .ok a => f a
  | .error e => s!"!{repr e}"
def opS {α} (f : α → String) : Option α → String
  | some a => f a
  | none => "None"
def T : String := "/repo/test_data/"
def fol (t : Nat) : Nat := 1601 + t / 10000000 / 31556952
def main : IO Unit := do
  for (f, g) in [("tracking_4kn.bin", some 4096), ("tracking_4kn.bin", none), ("tracking_3_move_to.bin", none), ("tracking_512_large.log", none)] do
    let b ← loadBytes (T ++ f)
    let size := MoveTable.sectorSize b g
    IO.println s!"{f} sector {size} short {exS (fun _ => "ok") (MoveTable.header (b.take 1024))}"
    match MoveTable.getHeader b size with
    | .error e => IO.println s!"{repr e}"
    | .ok h =>
      IO.println s!"{MoveTable.headerUnknown16 h} {MoveTable.headerFlags h} {MoveTable.headerUnknown24 h} {MoveTable.isLogFlushed h} {repr (MoveTable.expansionData h)}"
      let x := MoveTable.extendedHeader h
      IO.println s!"{st x.machineId} {hx x.volumeObjectId} {x.unknown32} {x.timestamp40} {x.timestamp48} {x.flags56} {x.state60} {x.indices}"
      match MoveTable.footer (slice b size (2*size)) with
      | .error e => IO.println s!"{repr e}"
      | .ok m => IO.println s!"{MoveTable.footerLowest m} {MoveTable.footerNext m} {hx (MoveTable.footerUnused m)}"
      IO.println s!"sectors {(MoveTable.logSectors b size).length}"
      let g := MoveTable.logEntries b size
      IO.println s!"entries {g.items.length} {repr g.err}"
      for e in g.items do
        IO.println s!" {exS (fun x => s!"{x}") (MoveTable.entryType e)} {MoveTable.entryNext e} {MoveTable.entryPrevious e} {MoveTable.entryIndex e} {MoveTable.entryUnknown16 e} {MoveTable.entryUnknown120 e} {st (MoveTable.entryMachineId e)} {exS (fun x => s!"{x.1.map fol} {x.2.map fol}") (MoveTable.timestamp e)}"
  for f in ["volume_start.bin", "volume_start_2.bin", "volume_start_3.bin", "volume_start_nosc_2003.bin", "volume_start_nosc_10.bin"] do
    let b ← loadBytes (T ++ f)
    let s := slice b 7680 8192
    IO.println s!"{f} {b.length} {exS (fun _ => "ok") (ShadowCopy.startBlock b)} {hx (ShadowCopy.blockGuid s)} {ShadowCopy.blockVersion s} {ShadowCopy.blockType s} max {ShadowCopy.maxDiffAreaSize b} {ShadowCopy.applicationFlags b} {ShadowCopy.freeSpacePercentage b} {ShadowCopy.hotBlocksPercentage b} {ShadowCopy.hotBlocksDays b} {ShadowCopy.protectionFlags b} eq={ShadowCopy.volumeGuid b == ShadowCopy.storageGuid b} {ShadowCopy.isStorageLocal b} {exS (fun x => s!"{x}") (ShadowCopy.firstControlBlockOffset b)}"
  for f in ["control_block_file.bin", "control_block_file_2.bin"] do
    let b ← loadBytes (T ++ f)
    for i in List.range 4 do
      let c := slice b (i*0x4000) ((i+1)*0x4000)
      let g := ShadowCopy.items c
      IO.println s!"{f} {i} {exS (fun _ => "ok") (ShadowCopy.block .control c)} {ShadowCopy.relativeOffset c} {ShadowCopy.blockOffset c} {ShadowCopy.nextOffset c} items {g.items.length} {repr g.err}"
      for it in g.items do
        match it with
        | .store r => IO.println s!" store {hx (ShadowCopy.storeGuid r)} {ShadowCopy.volumeSize r} {ShadowCopy.timestamp r}"
        | .location r => IO.println s!" loc {hx (ShadowCopy.storeGuid r)}"
  let fcb ← loadBytes (T ++ "fcb.bin")
  let r := MFT.carveTimestamps none fcb
  IO.println s!"fcb 1: {r.1.items.length} {repr r.1.err}"
  let r := MFT.carveTimestamps none (List.replicate 200 fcb).flatten
  IO.println s!"fcb 200: {r.1.items.length} {repr r.1.err} {(List.range 200).all fun c => match r.1.items[c]? with | some i => i.position == c*512+16 && i.layout == (128, 192) | none => false}"
