/-
What the merged attributes of a file record are (used by C86 and C87).
-/
import Verif.Model.MFT.FileSystem
namespace Verif.Spec.MergedAttributes
open Verif.MFT

/-- A resident attribute record. -/
def IsResident : AttributeRecord → Bool
  | .resident _ _ _ => true
  | .nonresident _ _ _ _ _ _ _ => false

/-- A nonresident attribute record with the first extent of an attribute. -/
def IsFirst : AttributeRecord → Bool
  | .resident _ _ _ => false
  | .nonresident _ _ _ lo _ _ _ => lo = 0

/-- `b` is a further extent of the attribute with this type and name. -/
def IsFurther (type : Nat) (name : Option Str) : AttributeRecord → Bool
  | .resident _ _ _ => false
  | .nonresident t n _ lo _ _ _ => lo ≠ 0 ∧ t = type ∧ n.map utf16Decode = name

/-- The lowest and highest VCN and the data runs of a nonresident attribute record. -/
def lowest : AttributeRecord → Nat
  | .resident _ _ _ => 0
  | .nonresident _ _ _ lo _ _ _ => lo
def highest : AttributeRecord → Nat
  | .resident _ _ _ => 0
  | .nonresident _ _ _ _ hi _ _ => hi
def runsOf : AttributeRecord → List Run
  | .resident _ _ _ => []
  | .nonresident _ _ _ _ _ _ runs => runs

/-- `m` is the attribute whose first extent is `a`, with all its extents among `attrs`: `a` itself if there are no
further extents, otherwise its runs followed by those of the further extents in the order of their lowest VCNs, up to the
highest VCN of the last one, with the file size that `a` records. -/
def Merges (attrs : List AttributeRecord) (a : AttributeRecord) (m : MergedAttribute) : Prop :=
  ∃ t n pairs hi fs runs, a = .nonresident t n pairs 0 hi fs runs ∧
    ((attrs.filter (IsFurther t (n.map utf16Decode)) = [] ∧ m = .stored a) ∨
      ∃ es last, (es ++ [last]).Perm (attrs.filter (IsFurther t (n.map utf16Decode))) ∧
        (es ++ [last]).Pairwise (fun x y => lowest x ≤ lowest y) ∧
        m = .merged t (n.map utf16Decode) (highest last) fs (runs ++ (es ++ [last]).flatMap runsOf))

/-- The elements of the two lists merge one by one. -/
inductive AllMerge (attrs : List AttributeRecord) : List AttributeRecord → List MergedAttribute → Prop
  | nil : AllMerge attrs [] []
  | cons {a as m ms} (head : Merges attrs a m) (tail : AllMerge attrs as ms) : AllMerge attrs (a :: as) (m :: ms)

/-- The type and the name of the nonresident attribute that was yielded, and its data runs. -/
def streamOf : MergedAttribute → Option (Nat × Option Str)
  | .stored (.resident _ _ _) => none
  | .stored (.nonresident t n _ _ _ _ _) => some (t, n.map utf16Decode)
  | .merged t n _ _ _ => some (t, n)
def mergedRuns : MergedAttribute → List Run
  | .stored a => runsOf a
  | .merged _ _ _ _ runs => runs

end Verif.Spec.MergedAttributes
