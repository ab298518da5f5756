import Verif.Model.FAT.Parser
open Verif
def loadBytes (p : String) : IO Bytes := do
  let b ← IO.FS.readBinFile p
  return b.toList
def hx (b : Bytes) : String := String.join (b.map fun x => let n := x.toNat; (Nat.digitChar (n / 16)).toString ++ (Nat.digitChar (n % 16)).toString)
def st (s : Str) : String := String.join (s.map fun c => (Char.ofNat c).toString)
def exS {α} (f : α → String) : Except Exc α → String
  | .ok a => f a
  | .error e => s!"!{repr e}"
def opS {α} (f : α → String) : Option α → String
  | some a => f a
  | none => "None"
open Verif.FAT
def dts : Option DateTime → String
  | none => "None"
  | some d => s!"{d.date.year}-{d.date.month}-{d.date.day} {d.time.hour}:{d.time.minute}:{d.time.second}.{d.microsecond}"
def dt : Option Date → String
  | none => "None"
  | some d => s!"{d.year}-{d.month}-{d.day}"
def main (args : List String) : IO Unit := do
  let b ← loadBytes args[0]!
  let scan := args[1]! == "1"
  let want := args[2]!
  IO.println "loaded"
  let off := (args[3]!).toNat!
  match openVolume b off none with
  | .error e => IO.println s!"FAIL {repr e}"
  | .ok v =>
    match v.walk ascii scan id 1000 with
    | none => IO.println "fuel"
    | some g =>
      for i in g.items do
        match i with
        | .orphan l => IO.println s!"O\t{opS st l}"
        | .file e =>
          IO.println s!"F\t{st e.shortName}\t{opS st e.longName}\tdir={e.isDirectory}\tdel={repr e.isDeleted}\t{dts e.mtime}\t{dts e.ctime}\t{dt e.atime}\tsize={e.size}\tattr={e.attributes}\tclus={e.firstCluster}\tenc={e.isEncrypted}\t{hx e.shortNameRaw}"
          if st (e.longName.getD e.shortName) == want then
            IO.println s!"D\t{exS hx (v.readChain e.firstCluster (some e.size))}"
      IO.println s!"END {g.items.length} {repr g.err}"
