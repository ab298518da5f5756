/-
Specification of a cluster chain of a file allocation table (FAT12/16/32 and exFAT).
-/
import Verif.Basic.Exc
namespace Verif.Spec

/-- `clusters` is a path through the table: it starts at `first`, goes from every cluster to the one that
its entry names, never comes to the same cluster twice, and only its last cluster can have an entry that is
not the number of a cluster (`isEnd`: an end mark, a free or a reserved one; `bad`: the mark of a bad one). -/
structure ClusterPath (entry : Nat → Except Exc Nat) (isEnd : Nat → Prop) (bad first : Nat) (clusters : List Nat) : Prop where
  starts : clusters.head? = some first
  noRepeat : clusters.Nodup
  follows : ∀ (i c d : Nat), clusters[i]? = some c → clusters[i + 1]? = some d → entry c = .ok d ∧ ¬ isEnd d ∧ d ≠ bad

/-- `result` is the chain that starts at `first`: a path that cannot be continued, because the entry of its
last cluster is an end mark or leads back into the path, or is the mark of a bad cluster, which is
`none`. -/
def IsChain (entry : Nat → Except Exc Nat) (isEnd : Nat → Prop) (bad first : Nat) (result : List (Option Nat)) : Prop :=
  ∃ clusters last next, ClusterPath entry isEnd bad first clusters ∧ clusters.getLast? = some last ∧ entry last = .ok next ∧
    (((next ∈ clusters ∨ isEnd next) ∧ next ≠ bad ∧ result = clusters.map some) ∨
     (next = bad ∧ result = clusters.map some ++ [none]))

/-- The chain that starts at `first` runs into a cluster whose entry cannot be read. -/
def IsBroken (entry : Nat → Except Exc Nat) (isEnd : Nat → Prop) (bad first : Nat) (e : Exc) : Prop :=
  ∃ clusters last, ClusterPath entry isEnd bad first clusters ∧ clusters.getLast? = some last ∧ entry last = .error e

end Verif.Spec
