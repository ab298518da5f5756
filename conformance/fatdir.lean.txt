import Verif.Model.FAT.Directory
open Verif
def loadBytes (p : String) : IO Bytes := do
  let b ← IO.FS.readBinFile p
  return b.toList
def hx (b : Bytes) : String := String.join (b.map fun x => let n := x.toNat; (Nat.digitChar (n / 16)).toString ++ (Nat.digitChar (n % 16)).toString)
def st (s : Str) : String := String.join (s.map fun c => (Char.ofNat c).toString)
def exS {α} (f : α → String) : Except Exc α → String
  | .ok a => f a
  | .error e => s!"!{repr e}"
def opS {α} (f : α → String) : Option α → String
  | some a => f a
  | none => "None"
open Verif.FAT
def dts : Option DateTime → String
  | none => "None"
  | some d => s!"{d.date.year}-{d.date.month}-{d.date.day} {d.time.hour}:{d.time.minute}:{d.time.second}.{d.microsecond}"
def dt : Option Date → String
  | none => "None"
  | some d => s!"{d.year}-{d.month}-{d.day}"
def upCp (b : UInt8) : Nat := let n := b.toNat
  if n < 0x80 then n else if n < 0xB0 then 0x410 + (n - 0x80) else if 0xE0 ≤ n ∧ n < 0xF0 then 0x440 + (n - 0xE0) else 0xFFFD
def cp866 : Codec := { ascii with decode := fun b => b.map upCp }
def main (args : List String) : IO Unit := do
  let b ← loadBytes args[0]!
  let g := listDirectory (if args[2]! == "cp866" then cp866 else ascii) (args[1]! == "1") false b
  for i in g.items do
    match i with
    | .orphan l => IO.println s!"O\t{opS st l}"
    | .file e => IO.println s!"F\t{st e.shortName}\t{opS st e.longName}\t{e.isDirectory}\t{repr e.isDeleted}\t{dts e.mtime}\t{dts e.ctime}\t{dt e.atime}\t{e.size}\t{e.attributes}\t{e.firstCluster}\t{repr e.isEncrypted}\t{e.ntbyte}\t{hx e.shortNameRaw}"
  IO.println s!"END {g.items.length} {repr g.err}"
