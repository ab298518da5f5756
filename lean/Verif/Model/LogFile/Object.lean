/-
Model of a `LogFileParser` object over its life (dfir_ntfs/LogFile.py:617-1397): several iterations over
`parse_ntfs_records`, each of them to its end or only to some point.  What an iteration leaves in the object is the file object in
memory (`State`) and what `collect_lsns` has adjusted (`Config`); the lists of LSNs are built anew by every iteration.

Only one iteration goes on at a time: an iteration that has been left is not continued later.
-/
import Verif.Model.LogFile.Replay
namespace Verif.LogFile

/-- dfir_ntfs/LogFile.py:651-652, 717-718: the attributes of the parser that change. -/
structure Log where
  state : State
  config : Config
  deriving DecidableEq

/-- dfir_ntfs/LogFile.py:645-720: the attributes of a new parser. -/
def Log.fresh (file : Bytes) : Log := ⟨⟨file, none⟩, ⟨4096, none, 1⟩⟩

/-- dfir_ntfs/LogFile.py:1069-1075: the NTFS restart areas that the loop of `collect_lsns` meets, up to its end or to an exception. -/
def Parser.areasSeen (p : Parser) (file : Bytes) (fuel : Nat) : List Nat → List Bytes
  | [] => []
  | lsn :: rest =>
    match p.getClientData file fuel lsn with
    | some (.ok data) =>
      if data.recordType = 2 then
        match data.decoded with
        | .ok (.restartArea area _) => area :: p.areasSeen file fuel rest
        | .ok (.logRecord ..) => p.areasSeen file fuel rest
        | .error e => if e = .ClientException then p.areasSeen file fuel rest else []
      else p.areasSeen file fuel rest
    | _ => []

/-- dfir_ntfs/LogFile.py:770-1066: the LSNs with which `collect_lsns` begins to look for restart areas; nothing when there is an exception
before. -/
def Parser.beforeAreas (p : Parser) (file : Bytes) (order : List Nat → List Nat) (fuel : Nat) : List Nat :=
  match p.firstLsns file with
  | .error _ => []
  | .ok first =>
    match p.validateLoop file (order (first.foldl setAdd [])) (first.foldl setAdd []) [] with
    | .error _ => []
    | .ok (lsns, new) =>
      match p.validateNew file (order new) new with
      | .error _ => []
      | .ok new =>
        match walkAll (p.findNextLsn file) fuel (order (new.foldl setAdd lsns)) (new.foldl setAdd lsns) with
        | some (.ok lsns) =>
          match walkAll (fun _ => p.findPreviousLsn file) fuel (order lsns) lsns with
          | some (.ok lsns) =>
            match walkAll (fun _ => p.findUndoNextLsn file) fuel (order lsns) lsns with
            | some (.ok lsns) => order lsns
            | _ => []
          | _ => []
        | _ => []

/-- dfir_ntfs/LogFile.py:1078-1091: what `collect_lsns` leaves in the parser, whether it returns or raises an exception. -/
def Parser.configLeft (p : Parser) (file : Bytes) (order : List Nat → List Nat) (fuel : Nat) (config : Config) : Config :=
  (p.areasSeen file fuel (p.beforeAreas file order fuel)).foldl Config.adjust config

/-- dfir_ntfs/LogFile.py:1321-1397, 1289, 1317: an iteration over `parse_ntfs_records(recover)`: `taken` is the number of items after which
it is left, or nothing if it goes on to the end.  (A generator does nothing before its first item is asked for; it is not told that it is
left.)  Every item comes with the cluster size that its `ClientData` is given. -/
def Parser.iterate (p : Parser) (o : Log) (order : List Nat → List Nat) (fuel : Nat) (recover : Bool) (taken : Option Nat) :
    Option (Gen (Item × Nat) × Log) :=
  if taken = some 0 then some (.done, o)
  else
    match (if recover then p.repair o.state else (o.state, none)) with                                        -- 1326-1332
    | (s, some e) => some (.fail e, ⟨s, o.config⟩)
    | (s, none) =>
      match p.parseCurrent s.current order fuel o.config with                                                 -- 1334-1394
      | none => none
      | some g =>
        let config := p.configLeft s.current order fuel o.config
        let items := g.items.map fun i => (i, config.clusterSize)
        if taken.any (· ≤ g.items.length) then some (⟨items.take (taken.getD 0), none⟩, ⟨s, config⟩)
        else some (⟨items, g.err⟩, ⟨if recover ∧ g.err = none then s.discard else s, config⟩)                 -- 1396-1397

end Verif.LogFile
