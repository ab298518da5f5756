/-
Model of reading with `ShadowParser` and `ShadowParserTwoVolumes` (dfir_ntfs/ShadowCopy.py:1131-1253, 1720-1797) with the positions of the file objects
of the volume and of the volume with the shadow copies: several parsers can use the same file objects.

Not modelled: the positions during a selection; what it leaves is any pair of positions.
-/
import Verif.Model.ShadowCopy.Object
import Verif.Model.MFT.Shared
namespace Verif.ShadowCopy
open Verif.MFT (sharedSeekRead)

/-- dfir_ntfs/ShadowCopy.py:1144-1151, 1730-1749: the bytes of one source, and the new positions of the volume object and of the storage object. -/
def sharedSource (img : Image) (v s : Nat) : Source → Except Exc Bytes × Nat × Nat
  | .zero => (.ok (zeros 512), v, s)
  | .volume offset =>
    match sharedSeekRead img.volume v (img.volumeOffset + offset) 512 with
    | (d, v) => (d, v, s)
  | .store offset =>
    match img.storage with
    | none =>
      match sharedSeekRead img.volume v (img.volumeOffset + offset) 512 with
      | (d, v) => (d, v, s)
    | some (storage, storageOffset) =>
      match sharedSeekRead storage s (storageOffset + offset) 512 with
      | (d, s) => (d, v, s)

/-- dfir_ntfs/ShadowCopy.py:1143-1154: the loop over the sources. -/
def sharedSources (img : Image) : List Source → Nat → Nat → Except Exc Bytes × Nat × Nat
  | [], v, s => (.ok [], v, s)
  | x :: rest, v, s =>
    match sharedSource img v s x with
    | (.error e, v, s) => (.error e, v, s)
    | (.ok d, v, s) =>
      if d.length ≠ 512 then (.ok d, v, s)                                                -- 1153
      else
        match sharedSources img rest v s with
        | (.error e, v, s) => (.error e, v, s)
        | (.ok ds, v, s) => (.ok (d ++ ds), v, s)

/-- dfir_ntfs/ShadowCopy.py:1159-1168: what is put in place of the sector number `i` of the block at `offset`. -/
def sharedFillSource (img : Image) (offset i v s : Nat) : Source → Except Exc Bytes × Nat × Nat
  | .zero => (.ok emptyPattern, v, s)
  | .volume o => if o = offset + 512 * i then (.ok originalPattern, v, s) else sharedSource img v s (.volume o)
  | .store o => if o = offset + 512 * i then (.ok originalPattern, v, s) else sharedSource img v s (.store o)

/-- dfir_ntfs/ShadowCopy.py:1157-1173: the loop over the sources with the option `debug_fill`. -/
def sharedFillSources (img : Image) (offset : Nat) : Nat → List Source → Nat → Nat → Except Exc Bytes × Nat × Nat
  | _, [], v, s => (.ok [], v, s)
  | i, x :: rest, v, s =>
    match sharedFillSource img offset i v s x with
    | (.error e, v, s) => (.error e, v, s)
    | (.ok d, v, s) =>
      if d.length ≠ 512 then (.ok d, v, s)                                                -- 1170
      else
        match sharedFillSources img offset (i + 1) rest v s with
        | (.error e, v, s) => (.error e, v, s)
        | (.ok ds, v, s) => (.ok (d ++ ds), v, s)

/-- dfir_ntfs/ShadowCopy.py:1131-1175, 1720-1749 `read_at_exact_offset`. -/
def Parser.sharedBlock (img : Image) (p : Parser) (fill : Bool) (offset v s : Nat) : Except Exc Bytes × Nat × Nat :=
  match translateLevels img.volumeSize (p.level :: p.next) offset false false with
  | .error e => (.error e, v, s)
  | .ok sources => if fill then sharedFillSources img offset 0 sources v s else sharedSources img sources v s

/-- dfir_ntfs/ShadowCopy.py:1236-1251: the loop of `read`: the data, the offset of the parser, and the positions. -/
def Parser.sharedReadLoop (img : Image) (p : Parser) (fill : Bool) (size : Nat) (position left : Nat) (data : Bytes) (v s : Nat) :
    Except Exc Bytes × Nat × Nat × Nat :=
  if left = 0 then (.ok data, position, v, s)
  else if position ≥ size then (.ok data, position, v, s)                                 -- 1238
  else
    match p.sharedBlock img fill (position / 0x4000 * 0x4000) v s with
    | (.error e, v, s) => (.error e, position, v, s)
    | (.ok d, v, s) =>
      let new := slice d (position % 0x4000) (position % 0x4000 + left)
      if _h : new.length = 0x4000 then                                                    -- 1250
        p.sharedReadLoop img fill size (position + new.length) (left - new.length) (data ++ new) v s
      else (.ok (data ++ new), position + new.length, v, s)
termination_by left
decreasing_by
  have : (slice d (position % 0x4000) (position % 0x4000 + left)).length = 0x4000 := _h
  omega

/-- dfir_ntfs/ShadowCopy.py:1212-1253, 1751-1797 `read`: what is returned or raised, the parser, and the positions. -/
def Parser.sharedRead (img : Image) (p : Parser) (fill : Bool) (size : Option Int) (v s : Nat) : Except Exc Bytes × Parser × Nat × Nat :=
  if fill = true ∧ img.storage.isSome then (.error .NotImplementedError, p, v, s)         -- 1758
  else if p.level.selected then
    let limit := virtualSize img p.level.store
    let size := readSize limit p.offset size
    if size ≤ 0 ∨ p.offset ≥ limit then (.ok [], p, v, s)                                 -- 1227
    else
      match p.sharedBlock img fill (p.offset / 0x4000 * 0x4000) v s with
      | (.error e, v, s) => (.error e, p, v, s)
      | (.ok d, v, s) =>
        let data := slice d (p.offset % 0x4000) (p.offset % 0x4000 + size.toNat)          -- 1233
        let r := p.sharedReadLoop img fill limit (p.offset + data.length) (size.toNat - data.length) data v s
        (r.1, { p with offset := r.2.1 }, r.2.2)
  else (.error .ValueError, p, v, s)                                                      -- 1217

/-- dfir_ntfs/ShadowCopy.py:730-1253, as it is called: one step of a program that has several parsers on the same file objects: a call of a method of
the parser number `i`, or another use of the file objects, which leaves them at any positions.  (For a selection, `v` and `s` are the
positions in which it leaves them.) -/
inductive Step where
  | select (i : Nat) (key : Key) (v s : Nat)
  | seek (i : Nat) (offset whence : Int)
  | tell (i : Nat)
  | read (i : Nat) (size : Option Int) (fill : Bool)
  | moved (v s : Nat)
  deriving DecidableEq, Repr

/-- dfir_ntfs/ShadowCopy.py:730-1253: one step, where `parsers i` is the parser number `i`: the number of the parser that was called, its answer, the
parser afterwards, and the positions. -/
def step (img : Image) (o : Opened) (fuel : Nat) (parsers : Nat → Parser) (v s : Nat) : Step → Option (Option (Nat × Answer × Parser) × Nat × Nat)
  | .select i key v s =>
    match call img o fuel (parsers i) (.select key) with
    | none => none
    | some (a, p) => some (some (i, a, p), v, s)
  | .seek i offset whence =>
    match (parsers i).seek img offset whence with
    | (.ok n, p) => some (some (i, .position n, p), v, s)
    | (.error e, p) => some (some (i, .raised e, p), v, s)
  | .tell i =>
    match (parsers i).tell with
    | .ok n => some (some (i, .position n, parsers i), v, s)
    | .error e => some (some (i, .raised e, parsers i), v, s)
  | .read i size fill =>
    match (parsers i).sharedRead img fill size v s with
    | (.ok d, p, v, s) => some (some (i, .data d, p), v, s)
    | (.error e, p, v, s) => some (some (i, .raised e, p), v, s)
  | .moved v s => some (none, v, s)

/-- dfir_ntfs/ShadowCopy.py:730-1253, as it is called: the steps of such a program in their order: the answers with the numbers of the parsers. -/
def runSteps (img : Image) (o : Opened) (fuel : Nat) : (Nat → Parser) → Nat → Nat → List Step → Option (List (Nat × Answer))
  | _, _, _, [] => some []
  | parsers, v, s, x :: rest =>
    match step img o fuel parsers v s x with
    | none => none
    | some (none, v, s) => runSteps img o fuel parsers v s rest
    | some (some (i, a, p), v, s) =>
      match runSteps img o fuel (fun j => if j = i then p else parsers j) v s rest with
      | none => none
      | some as => some ((i, a) :: as)

end Verif.ShadowCopy
