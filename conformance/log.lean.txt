import Verif.Model.LogFile.Object
import Verif.Model.LogFile.RecordText
open Verif
def loadBytes (p : String) : IO Bytes := do
  let b ← IO.FS.readBinFile p
  return b.toList
def hx (b : Bytes) : String := String.join (b.map fun x => let n := x.toNat; (Nat.digitChar (n / 16)).toString ++ (Nat.digitChar (n % 16)).toString)
def st (s : Str) : String := String.join (s.map fun c => (Char.ofNat c).toString)
def exS {α} (f : α → String) : Except Exc α → String
  | .ok a => f a
  | .error e => s!"!{repr e}"
def opS {α} (f : α → String) : Option α → String
  | some a => f a
  | none => "None"
open Verif.LogFile
def dumpItems (tag : String) (g : Gen (Item × Nat)) : IO Unit := do
  for (i, cs) in g.items do
    match i.decoded with
    | .restartArea b l => IO.println s!"{tag} RA {l} {areaMajorVersion b} {opS toString (bytesPerCluster b)}"
    | .logRecord b l t => IO.println s!"{tag} LR {l} {t} {redoOperation b} {undoOperation b} {targetBlockSize b} mft={opS toString (mftTargetNumber b cs)} idx={targetAttribute b} oat={opS (fun (e : OatEntry) => s!"{e.2.1}:{st e.2.2}") (i.oat.find? (·.1 == targetAttribute b))} oatdump={i.oatDump.isSome} undo={exS hx (undoData b)} redo={exS hx (redoData b)}"
  IO.println s!"{tag} END {g.items.length} {repr g.err}"
def main (args : List String) : IO Unit := for a in args do
  let b ← loadBytes a
  for k in [0, 4096] do
    match restartPage (slice b k (k + 4096)) with
    | .error e => IO.println s!"RP !{repr e}"
    | .ok pg => match getRestartArea pg with
      | .error e => IO.println s!"RP !{repr e}"
      | .ok ar => for c in (clients ar).items do IO.println s!"RP {majorVersion pg}.{minorVersion pg} {exS toString (logClients ar)} {exS toString (clientRestartLsn c)} {hx c}"
  match Parser.init b with
  | .error e => IO.println s!"FAIL {repr e}"
  | .ok p =>
    match p.iterate (Log.fresh b) id 1000000 false none with
    | none => IO.println "fuel"
    | some (g, o) =>
      dumpItems "F" g
      match p.iterate o id 1000000 true none with
      | none => IO.println "fuel"
      | some (g, _) => dumpItems "T" g
