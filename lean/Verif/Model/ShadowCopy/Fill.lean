/-
Model of the rest of `ShadowParser` (dfir_ntfs/ShadowCopy.py): the option `debug_fill` of `read` (1131-1175, 1212-1253),
which replaces some sectors with texts, and `shadows` (717-728).
-/
import Verif.Model.ShadowCopy.Parser
import Verif.Model.Attributes
namespace Verif.ShadowCopy

/-! ### Listing -/

/-- dfir_ntfs/ShadowCopy.py:52 `ShadowCopyInformation`.  The timestamp is decoded (`none` is `None`), the GUID is its raw bytes. -/
structure Information where
  stackPosition : Nat
  timestamp : Option Nat
  storeGuid : Bytes
  volumeSize : Nat
  deriving DecidableEq, Repr

/-- dfir_ntfs/ShadowCopy.py:723-728. -/
def information (raw : Bytes) : Information :=
  ⟨stackPosition raw, Attributes.decodeFiletime (timestamp raw), storeGuid raw, volumeSize raw⟩

/-- dfir_ntfs/ShadowCopy.py:722: the items of one type. -/
def storesOf (l : List Item) : List Information :=
  l.filterMap fun | .store raw => some (information raw) | .location _ => none

/-- dfir_ntfs/ShadowCopy.py:717-728 `shadows`. -/
def shadows : List Bytes → Gen Information
  | [] => .done
  | b :: rest => Gen.append ⟨storesOf (items b).items, (items b).err⟩ (shadows rest)

/-! ### Filling -/

/-- dfir_ntfs/ShadowCopy.py:1160: `b'EMPTY           ' * 32`. -/
def emptyPattern : Bytes :=
  (List.replicate 32 [0x45, 0x4D, 0x50, 0x54, 0x59, 0x20, 0x20, 0x20, 0x20, 0x20, 0x20, 0x20, 0x20, 0x20, 0x20, 0x20]).flatten
/-- dfir_ntfs/ShadowCopy.py:1163: `b'ORIGINAL        ' * 32`. -/
def originalPattern : Bytes :=
  (List.replicate 32 [0x4F, 0x52, 0x49, 0x47, 0x49, 0x4E, 0x41, 0x4C, 0x20, 0x20, 0x20, 0x20, 0x20, 0x20, 0x20, 0x20]).flatten

/-- dfir_ntfs/ShadowCopy.py:1159-1168: what is put in place of the sector number `i` of the block at `offset`. -/
def fillSource (img : Image) (offset i : Nat) : Source → Except Exc Bytes
  | .zero => .ok emptyPattern
  | .volume o => if o = offset + 512 * i then .ok originalPattern else readSource img (.volume o)
  | .store o => if o = offset + 512 * i then .ok originalPattern else readSource img (.store o)

/-- dfir_ntfs/ShadowCopy.py:1157-1173: the loop over the sources, from number `i` on.  (After the patterns the code has no test
of the length; they are 512 bytes long.) -/
def fillSources (img : Image) (offset : Nat) : Nat → List Source → Except Exc Bytes
  | _, [] => .ok []
  | i, x :: rest =>
    match fillSource img offset i x with
    | .error e => .error e
    | .ok d =>
      if d.length ≠ 512 then .ok d                                                        -- 1170
      else match fillSources img offset (i + 1) rest with | .error e => .error e | .ok ds => .ok (d ++ ds)

/-- dfir_ntfs/ShadowCopy.py:1131-1175 `read_at_exact_offset` with its option. -/
def readBlockFill (img : Image) (stores : List Store) (fill : Bool) (offset : Nat) : Except Exc Bytes :=
  match translate img.volumeSize stores offset false false with
  | .error e => .error e
  | .ok sources => if fill then fillSources img offset 0 sources else readSources img sources

/-- dfir_ntfs/ShadowCopy.py:1236-1251: the loop of `read`, where `block` reads a block. -/
def readLoopBy (block : Nat → Except Exc Bytes) (size : Nat) (position left : Nat) (data : Bytes) : Except Exc Bytes × Nat :=
  if left = 0 then (.ok data, position)
  else if position ≥ size then (.ok data, position)                                       -- 1238
  else
    match block (position / 0x4000 * 0x4000) with
    | .error e => (.error e, position)
    | .ok d =>
      let new := slice d (position % 0x4000) (position % 0x4000 + left)
      if _h : new.length = 0x4000 then                                                    -- 1250
        readLoopBy block size (position + new.length) (left - new.length) (data ++ new)
      else (.ok (data ++ new), position + new.length)
termination_by left
decreasing_by
  have : (slice d (position % 0x4000) (position % 0x4000 + left)).length = 0x4000 := _h
  omega

/-- dfir_ntfs/ShadowCopy.py:1212-1253, 1753-1797 `read` of a parser with a selected shadow copy and with its option `debug_fill`:
the result and the new position. -/
def readFill (img : Image) (stores : List Store) (fill : Bool) (position : Nat) (size : Option Int) : Except Exc Bytes × Nat :=
  if fill = true ∧ img.storage.isSome then (.error .NotImplementedError, position)        -- 1758
  else
    match stores with
    | [] => (.error .ValueError, position)                                                -- 1217
    | s :: _ =>
      let limit := virtualSize img s
      let size := readSize limit position size
      if size ≤ 0 ∨ position ≥ limit then (.ok [], position)                              -- 1227
      else
        match readBlockFill img stores fill (position / 0x4000 * 0x4000) with
        | .error e => (.error e, position)
        | .ok d =>
          let data := slice d (position % 0x4000) (position % 0x4000 + size.toNat)        -- 1233
          readLoopBy (readBlockFill img stores fill) limit (position + data.length) (size.toNat - data.length) data

end Verif.ShadowCopy
