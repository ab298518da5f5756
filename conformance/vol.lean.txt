import Verif.Model.MFT.Parser
import Verif.Model.MFT.SlackSpace
import Verif.Model.AttributeFields
import Verif.Model.MFT.FileSystem
open Verif
def loadBytes (p : String) : IO Bytes := do
  let b ← IO.FS.readBinFile p
  return b.toList
def hx (b : Bytes) : String := String.join (b.map fun x => let n := x.toNat; (Nat.digitChar (n / 16)).toString ++ (Nat.digitChar (n % 16)).toString)
def st (s : Str) : String := String.join (s.map fun c => (Char.ofNat c).toString)
def exS {α} (f : α → String) : Except Exc α → String
  | .ok a => f a
  | .error e => s!"!{repr e}"
def opS {α} (f : α → String) : Option α → String
  | some a => f a
  | none => "None"

open Verif.MFT Verif.Attributes
def up (s : Str) : Str := s.map fun c => if 97 ≤ c ∧ c ≤ 122 then c - 32 else c
def runsS (rs : List Run) : String := String.intercalate "," (rs.map fun (o, l) => opS toString o ++ ":" ++ toString l)
def dumpIdx (b : Bytes) (off : Nat) (f : FragmentedFile) (r : FileRecord) : IO Unit := do
  for x in r.attributes.items do
    match x with
    | .nonresident 0xA0 _ mp _ _ sz _ =>
      match decodeMappingPairs mp with
      | .error e => IO.println s!"{repr e}"
      | .ok runs =>
        let g : FragmentedFile := ⟨b, off, f.clusterSize, runs, sz.toNat⟩
        match (g.read 0).1 with
        | .error e => IO.println s!"{repr e}"
        | .ok data =>
          IO.println s!"idx size {exS (opS toString) (indexBufferSize data)}"
          let bufs := indexBuffers data
          IO.println s!"buffers {bufs.items.length} {repr bufs.err}"
          for ib in bufs.items do
            let es := indexBufferEntries ib
            IO.println s!" lsn {exS toString (indexBufferLsn ib)} block {u64 ib 16} entries {es.items.length} {repr es.err}"
            for e in es.items do
              match e.attribute with
              | .ok (some v) => IO.println s!"N\t{exS toString (fileNameParent v)}\t{exS st (fileNameName v)}"
              | _ => IO.println "no"
          let sl := bufs.items.map fun ib => (indexBufferSlack ib).toOption.getD []
          for c in carve sl false do
            match c with
            | .fileName v => IO.println s!"C\t{exS st (fileNameName v)}"
            | .partialName n => IO.println s!"CP {st n}"
    | x => IO.println s!"attr {x.name.map st}"
def main (args : List String) : IO Unit := do
  let b ← loadBytes args[0]!
  let off := args[1]!.toNat!
  match openVolume b off with
  | .error e => IO.println s!"FAIL {repr e}"
  | .ok f =>
    IO.println s!"cluster {f.clusterSize} runs {runsS f.dataRuns} size {f.fileSize}"
    match (f.read 0).1 with
    | .error e => IO.println s!"FAIL {repr e}"
    | .ok m =>
      match Parser.init m with
      | .error e => IO.println s!"FAIL {repr e}"
      | .ok p =>
        match args[2]! with
        | "runs" => IO.println (exS (fun r => exS (opS runsS) r.getDataRuns) (p.getRecord args[3]!.toNat!))
        | "idx" =>
          match p.getRecordByPath up (Str.ofString args[3]!) with
          | .error e => IO.println s!"{repr e}"
          | .ok none => IO.println "not found"
          | .ok (some r) => dumpIdx b off f r
        | "ntfs3" =>
          IO.println s!"{exS (fun s => opS toString s.masterFileTableNumber) (p.getSegment 27)}"
          IO.println s!"{exS (fun s => opS toString s.masterFileTableNumber) (FileRecordSegment.init (slice m (27*1024) (28*1024)))}"
          let l := p.fileRecords.items.filter fun r => r.base.flags % 2 == 1 && (r.base.masterFileTableNumber.getD 0) ≥ 27
          IO.println s!"{l.length} {l.all fun r => r.base.shortVersion} {repr p.fileRecords.err}"
        | _ =>
          match p.getRecord 27 with
          | .error e => IO.println s!"{repr e}"
          | .ok r =>
            IO.println s!"{r.base.shortVersion} {r.children.length} {r.children.all (·.shortVersion)}"
            let a := r.attributes
            for x in a.items do
              match x with
              | .resident 0x30 _ v => IO.println s!"N\t{exS st (fileNameName v)}"
              | _ => pure ()
            IO.println s!"END {repr a.err}"
