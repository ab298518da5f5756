import Verif.Model.MFT.Parser
import Verif.Model.MFT.SlackSpace
import Verif.Model.AttributeFields
import Verif.Model.MFT.FileSystem
open Verif
def loadBytes (p : String) : IO Bytes := do
  let b ← IO.FS.readBinFile p
  return b.toList
def hx (b : Bytes) : String := String.join (b.map fun x => let n := x.toNat; (Nat.digitChar (n / 16)).toString ++ (Nat.digitChar (n % 16)).toString)
def st (s : Str) : String := String.join (s.map fun c => (Char.ofNat c).toString)
def exS {α} (f : α → String) : Except Exc α → String
  | .ok a => f a
  | .error e => s!"!{repr e}"
def opS {α} (f : α → String) : Option α → String
  | some a => f a
  | none => "None"
open Verif.MFT Verif.Attributes
def dumpFile (path : String) : IO Unit := do
  let b ← loadBytes path
  match Parser.init b with
  | .error e => IO.println s!"FAIL {repr e}"
  | .ok p =>
    let g := p.fileRecords
    for r in g.items do
      IO.println s!"R {opS toString r.base.masterFileTableNumber} seq={r.base.sequenceNumber} flags={r.base.flags} children={r.children.length}"
      match p.buildFullPaths r with
      | none => IO.println "P fuel"
      | some (.error e) => IO.println s!"P !{repr e}"
      | some (.ok l) => for (s, v) in l do IO.println s!"P {st s}\t{exS st (fileNameName v)}"
      let a := r.attributes
      for x in a.items do
        match x with
        | .resident tc _ v =>
          IO.println s!"A {tc} {opS st x.name} res {hx v}"
          if tc = 0x10 then
            let f := exS (opS toString)
            IO.println s!"S {f (siMtime v)} {f (siAtime v)} {f (siEtime v)} {f (siCtime v)}"
        | .nonresident tc _ mp lo hi sz _ =>
          IO.println s!"A {tc} {opS st x.name} non {hx mp} {lo} {hi} {sz} {exS (fun (rs : List Run) => String.intercalate "," (rs.map fun (o, l) => opS toString o ++ ":" ++ toString l)) (decodeMappingPairs mp)}"
      if a.err.isSome then IO.println s!"AE {repr a.err}"
      let s := r.slack
      for v in s.items do IO.println s!"K {hx v}"
      for c in carve s.items true do
        match c with
        | .fileName v => IO.println s!"C {exS st (fileNameName v)}"
        | .partialName n => IO.println s!"CP {st n}"
    IO.println s!"END {repr g.err}"
def main (args : List String) : IO Unit := for a in args do dumpFile a
