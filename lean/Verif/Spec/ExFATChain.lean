/-
Specification of the clusters of an exFAT volume and of the marks in its table.
-/
import Verif.Model.ExFAT.Parser
namespace Verif.Spec.ExFAT
open Verif.ExFAT

/-- The entries that end a chain: the end mark, and the numbers that no cluster has. -/
def isEnd (v : Nat) : Prop := v = 0xFFFFFFFF ∨ v < 2

instance : DecidablePred isEnd := fun v => by unfold isEnd; infer_instance

/-- The mark of a bad cluster. -/
def badMark : Nat := 0xFFFFFFF7

/-- Entry `n` of the table is inside of it, and in the file. -/
def InTable (t : Table) (n : Nat) : Prop :=
  4 * n + 4 ≤ t.size ∧ n ≤ t.lastValidCluster ∧ t.offset + 4 * n + 4 ≤ t.object.length ∧ t.offset + 4 * n < 2 ^ 63

/-- Where a cluster is, from the beginning of the volume. -/
def clusterPlace (h : Heap) (c : Nat) : Nat := h.dataAreaOffset + (c - 2) * h.clusterSize

/-- The bytes of a cluster; a bad one counts as zeros. -/
def clusterBytes (h : Heap) : Option Nat → Bytes
  | none => List.replicate h.clusterSize 0
  | some c => slice h.object (h.offset + clusterPlace h c) (h.offset + clusterPlace h c + h.clusterSize)

/-- The cluster is inside the volume (when its size is given) and inside the file. -/
def Readable (h : Heap) : Option Nat → Prop
  | none => True
  | some c => (∀ n, h.size = some n → clusterPlace h c + h.clusterSize ≤ n) ∧
      h.offset + clusterPlace h c + h.clusterSize ≤ h.object.length ∧ h.offset + clusterPlace h c < 2 ^ 63

/-- The clusters that a file of a given size needs; all of them when no size is given. -/
def needed (h : Heap) (fileSize : Option Nat) (l : List (Option Nat)) : List (Option Nat) :=
  match fileSize with
  | none => l
  | some n => l.take ((n + h.clusterSize - 1) / h.clusterSize)

/-- The clusters of a contiguous file: consecutive numbers from the first one, as many as the size needs, but none
past the last cluster of the volume. -/
def run (h : Heap) (first fileSize : Nat) : List Nat :=
  if first < 2 then [] else List.range' first (min ((fileSize + h.clusterSize - 1) / h.clusterSize) (h.lastValidCluster + 1 - first))

end Verif.Spec.ExFAT
