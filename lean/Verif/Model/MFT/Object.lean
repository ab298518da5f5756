/-
Model of the object `MasterFileTableParser` (dfir_ntfs/MFT.py:915-1317) over its life: the constructor, and the method `execute_first_pass` that
the constructor calls and that can be called again.
-/
import Verif.Model.MFT.Parser
namespace Verif.MFT

/-- dfir_ntfs/MFT.py:918-934: a parser and its attributes `statistics` (`none` is `(None, None)`) and `first_pass_done`. -/
structure Table where
  parser : Parser
  statistics : Option (Nat × Nat)
  firstPassDone : Bool
  deriving DecidableEq, Repr

/-- dfir_ntfs/MFT.py:1281-1317 `execute_first_pass`: the dictionary `child_cache` is the one that the object has.  (What the object is after an
exception is not modelled: there is none, see C133_passes.) -/
def Table.executeFirstPass (t : Table) : Except Exc Table :=
  match firstPassLoop t.parser.file t.parser.size 0 t.parser.cache 0 0 with
  | .error e => .error e
  | .ok (cache, cnt, childCnt) => .ok ⟨{ t.parser with cache := cache }, some (cnt, childCnt), true⟩   -- 1316-1317

/-- dfir_ntfs/MFT.py:936-966, the constructor. -/
def Table.init (file : Bytes) (doFirstPass : Bool) : Except Exc Table :=
  match Parser.init file false with
  | .error e => .error e
  | .ok p => if doFirstPass then (Table.mk p none false).executeFirstPass else .ok ⟨p, none, false⟩    -- 965-966

/-- dfir_ntfs/MFT.py:1281-1317: `execute_first_pass` called `n` times. -/
def Table.executeFirstPasses (t : Table) : Nat → Except Exc Table
  | 0 => .ok t
  | n + 1 =>
    match t.executeFirstPass with
    | .error e => .error e
    | .ok t => t.executeFirstPasses n

end Verif.MFT
