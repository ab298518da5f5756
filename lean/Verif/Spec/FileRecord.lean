/-
How the extents of a file connect (used by C11).
-/
import Verif.Model.MFT.FileRecord
namespace Verif.Spec.FileRecord
open Verif.MFT

/-- Number of clusters described by a run list. -/
def clusters (rs : List Run) : Int := (rs.map (·.2)).sum

/-- `Connected v exts runs`: the extents, in this order, connect from the virtual cluster `v` on (each
one starts where the runs of the previous ones stop) and `runs` is the concatenation of their run
lists. -/
inductive Connected : Int → List Extent → List Run → Prop
  | nil (v : Int) : Connected v [] []
  | cons {v : Int} {e : Extent} {rest : List Extent} {rs more : List Run}
      (hstart : (e.lowestVcn : Int) = v) (hdec : decodeMappingPairs e.mappingPairs = .ok rs)
      (hrest : Connected (v + clusters rs) rest more) : Connected v (e :: rest) (rs ++ more)

/-- The extents of the requested data, in storage order: nonresident records of the requested type
whose (decoded) name is the requested one. -/
def extentsOf (attrs : List AttributeRecord) (name : Option Str) (typeCode : Nat) : List Extent :=
  attrs.filterMap fun a =>
    match a with
    | .nonresident t n pairs lo hi fs _ =>
      if t = typeCode ∧ n.map utf16Decode = name then some ⟨lo, hi, fs, pairs⟩ else none
    | .resident _ _ _ => none

/-- The type of attribute that is looked for, and the requested name (empty means none). -/
def wantedType (useIndex : Bool) : Nat := if useIndex then 0xA0 else 0x80
def wantedName (name : Option Str) : Option Str := if name = some [] then none else name

end Verif.Spec.FileRecord
