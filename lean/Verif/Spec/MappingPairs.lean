/-
Specification: the on-disk format of NTFS mapping pairs (run lists).

Each run is stored as a header byte (low nibble: size `cw` of the length field, high nibble: size
`ow` of the LCN field, 0 for a sparse run), the run length as a signed little-endian number in `cw`
bytes, and, for a run that is not sparse, the difference between its LCN and the LCN of the previous
run that is not sparse (0 at the beginning) as a signed little-endian number in `ow` bytes.  The
list ends with a zero byte.
-/
import Verif.Basic.Bytes
namespace Verif.Spec.MappingPairs

/-- A run to be stored: field sizes, the first cluster (`none` for a sparse run) and the length. -/
structure StoredRun where
  cw : Nat
  ow : Nat
  lcn : Option Int
  count : Int

/-- `v` fits a signed field of `w` bytes. -/
def Fits (w : Nat) (v : Int) : Prop := -(256 : Int) ^ w ≤ 2 * v ∧ 2 * v < (256 : Int) ^ w

/-- LCN the next difference is relative to. -/
def nextBase (prev : Int) (r : StoredRun) : Int :=
  match r.lcn with
  | none => prev
  | some l => l

/-- Bytes of one run. -/
def encodeRun (prev : Int) (r : StoredRun) : Bytes :=
  match r.lcn with
  | none => UInt8.ofNat r.cw :: intLE r.cw r.count
  | some l => UInt8.ofNat (r.cw + 16 * r.ow) :: (intLE r.cw r.count ++ intLE r.ow (l - prev))

/-- Bytes of a run list (without the terminator). -/
def encode (prev : Int) : List StoredRun → Bytes
  | [] => []
  | r :: rs => encodeRun prev r ++ encode (nextBase prev r) rs

/-- A run is storable: a positive length and field sizes of 1..8 bytes that are big enough. -/
def RunOk (prev : Int) (r : StoredRun) : Prop :=
  1 ≤ r.cw ∧ r.cw ≤ 8 ∧ 0 < r.count ∧ Fits r.cw r.count ∧
  match r.lcn with
  | none => r.ow = 0
  | some l => 1 ≤ r.ow ∧ r.ow ≤ 8 ∧ Fits r.ow (l - prev)

/-- A run list is storable; cluster 0 (the boot sector) can only be the start of the first run. -/
def ListOk (prev : Int) (first : Bool) : List StoredRun → Prop
  | [] => True
  | r :: rs => RunOk prev r ∧ (r.lcn = some 0 → first = true) ∧ ListOk (nextBase prev r) false rs

/-- What a reader should get for a stored run: the LCN (or nothing) and the length. -/
def StoredRun.run (r : StoredRun) : Option Int × Int := (r.lcn, r.count)

end Verif.Spec.MappingPairs
