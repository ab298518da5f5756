/-
What a file described by data runs contains, independently of how it is read (used by C12-C14).
-/
import Verif.Model.MFT.FragmentedFile
namespace Verif.Spec.FragmentedFile
open Verif.MFT (Run)

/-- The physical clusters of a file in virtual order; `none` is a sparse cluster. -/
def clusterMap (runs : List Run) : List (Option Int) :=
  runs.flatMap fun r => (List.range r.2.toNat).map fun i => r.1.map (· + (i : Int))

/-- The byte at the absolute place `o` of the volume. -/
def volumeByte (volume : Bytes) (o : Int) : Option UInt8 := if o < 0 then none else volume[o.toNat]?

/-- Byte `p` of the file: zero in a sparse cluster, the byte of the volume otherwise; `none` when
there is no such byte. -/
def fileByte (f : MFT.FragmentedFile) (p : Nat) : Option UInt8 :=
  match (clusterMap f.dataRuns)[p / f.clusterSize]? with
  | none => none
  | some none => some 0
  | some (some lcn) => volumeByte f.volume (f.volumeOffset + lcn * f.clusterSize + (p % f.clusterSize : Nat))

/-- The end of the last cluster that holds bytes of the file. -/
def allocatedEnd (f : MFT.FragmentedFile) : Nat := (f.fileSize + f.clusterSize - 1) / f.clusterSize * f.clusterSize

/-- Number of bytes a read of `size` bytes at `pos` delivers. -/
def readCount (f : MFT.FragmentedFile) (pos size : Nat) : Nat :=
  if pos < f.fileSize then min size (allocatedEnd f - pos) else 0

end Verif.Spec.FragmentedFile
