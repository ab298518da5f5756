import Verif.Model.AttributeFields
import Verif.Model.WSL
import Verif.Model.MFT.FileRecord
import Verif.Model.UpdateSequence
open Verif
def loadBytes (p : String) : IO Bytes := do
  let b ← IO.FS.readBinFile p
  return b.toList
def hx (b : Bytes) : String := String.join (b.map fun x => let n := x.toNat; (Nat.digitChar (n / 16)).toString ++ (Nat.digitChar (n % 16)).toString)
def st (s : Str) : String := String.join (s.map fun c => (Char.ofNat c).toString)
def exS {α} (f : α → String) : Except Exc α → String
  | .ok a => f a
  | .error e => s!"!{repr e}"
def opS {α} (f : α → String) : Option α → String
  | some a => f a
  | none => "None"
open Verif.Attributes
def asc (b : Bytes) : String := String.ofList (b.map fun c => Char.ofNat c.toNat)
def xa (p : Bytes × Bytes) : String × String := (asc p.1, asc p.2)
def T : String := "/repo/test_data/"
def tm : Except Exc (Option Nat) → String := exS (opS toString)
def dumpEa (v : Bytes) : IO Unit := do
  for a in eaParsed v do
    IO.println s!"  EA {hx a.name} {a.flags} lx={exS (fun v => s!"ch {exS toString (WSL.chtime v)} m {exS toString (WSL.mtime v)}") (WSL.lxattrb a.value)} xx={exS (fun v => s!"{(WSL.extendedAttributes v).map xa}") (WSL.lxxattr a.value)}"
def main : IO Unit := do
  for f in ["lxattrb_wsl_1.bin", "lxattrb_wsl_2.bin"] do
    let b ← loadBytes (T ++ f)
    IO.println s!"{exS (fun _ => "ok") (WSL.lxattrb b.dropLast)} {exS (fun _ => "ok") (WSL.lxattrb (b ++ [0]))} {exS (fun _ => "ok") (WSL.lxattrb b)}"
    IO.println s!"mode {exS toString (WSL.mode b)} {exS toString (WSL.uid b)} {exS toString (WSL.gid b)} {exS toString (WSL.rdev b)} T {exS toString (WSL.atime b)} {exS toString (WSL.mtime b)} {exS toString (WSL.chtime b)}"
  IO.println s!"{exS (fun _ => "ok") (WSL.lxxattr [0,0])}"
  let b ← loadBytes (T ++ "lxxattr_wsl_1.bin")
  IO.println s!"{(WSL.extendedAttributes b).map xa}"
  for f in ["ea-1.bin", "ea-2.bin"] do dumpEa (← loadBytes (T ++ f))
  for f in ["frs-81151.bin", "rp.bin", "frs_ea.bin", "frs.bin"] do
    let b ← loadBytes (T ++ f)
    match MFT.FileRecordSegment.init b with
    | .error e => IO.println s!"{repr e}"
    | .ok s =>
      IO.println s!"{f} flags {s.flags} seq {s.sequenceNumber} num {opS toString s.masterFileTableNumber} lsn {u64 s.data 8} ref {u16 s.data 18}"
      let a := s.attributesGen
      for x in a.items do
        match x with
        | .resident tc _ v =>
          IO.println s!" res {tc} len {v.length}"
          if tc == 0xE0 then dumpEa v
          if tc == 0xD0 then IO.println s!"  {exS toString (eaPackedSize v)} {exS toString (eaUnpackedSize v)}"
          if tc == 0x30 then IO.println s!"  {exS toString (diPackedEaSize (fileNameInformation v))} {exS toString (diUnpackedEaSizeDifference (fileNameInformation v))}"
          if tc == 0xC0 then IO.println s!"  {exS toString (reparseIsMicrosoft v)} RP {exS hx (reparseBuffer v)}"
          if tc == 0x20 then IO.println s!"  {(attributeListEntries v).map fun e => (e.typeCode, e.name.isSome)}"
        | x => IO.println s!" non {x.name.isSome}"
      IO.println s!" err {repr a.err}"
  let b ← loadBytes (T ++ "standard_information.bin")
  IO.println s!"T {tm (siAtime b)} {tm (siMtime b)} {tm (siCtime b)} {tm (siEtime b)}"
  let p := PartialInformation.init b 0
  IO.println s!"T {opS toString p.atime} {opS toString p.mtime} {opS toString p.ctime} {opS toString p.etime}"
  let b ← loadBytes (T ++ "file_name.bin")
  let d := fileNameInformation b
  IO.println s!"{exS st (fileNameName b)} T {tm (diCtime d)} {tm (diMtime d)} {tm (diAtime d)} {tm (diEtime d)}"
  let b ← loadBytes (T ++ "object_id.bin")
  IO.println s!"T {opS toString (objectIdTimestamp b)} {opS hx (objectId b)} {(objectIdExtra b).length}"
