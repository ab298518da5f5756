/-
Model of the objects `ShadowParser` and `ShadowParserTwoVolumes` (dfir_ntfs/ShadowCopy.py:624-1262, 1264-1783) over their life: several
selections, with seeks and reads between them.  `select_shadow` assigns the attributes of the object one by one while it reads the metadata,
so the object is not what it was before when a selection fails.

Not modelled: the attributes that are read nowhere except in the selection that assigns them (`current_cbi2`, `current_cbi3`,
`current_location_description_items`, `current_application_information`); `current_diff_area_index`, which is rebuilt from the entries
immediately after them (779-786, nothing there can raise), is not kept but taken from the entries, as in `Parser.lean`.
-/
import Verif.Model.ShadowCopy.Fill
namespace Verif.ShadowCopy

/-- dfir_ntfs/ShadowCopy.py:627-679: the attributes of one parser; `none` is the `None` of the class.  (`return_null_blocks` has no such
value, but it is read only after a selection.) -/
structure Level where
  selected : Bool
  size : Option Nat
  bitmap : Option Bytes
  previousBitmap : Option Bytes
  diffArea : Option (List Entry)
  nullTargets : Option (List Nat)
  returnNull : Option Bool
  deriving DecidableEq, Repr

/-- dfir_ntfs/ShadowCopy.py:627-679, 687 and 1288: a parser that has been opened. -/
def Level.fresh : Level := ⟨false, none, none, none, none, none, none⟩

/-- dfir_ntfs/ShadowCopy.py:660-673: the attributes, where none of them is `None` (as of a parser with a selected shadow copy, see
C129_attributes). -/
def Level.store (l : Level) : Store :=
  ⟨l.size.getD 0, l.bitmap.getD [], l.previousBitmap.getD [], l.diffArea.getD [], l.nullTargets.getD [], l.returnNull.getD false⟩

/-- dfir_ntfs/ShadowCopy.py:627-679: a parser, the chain of its `current_next_parser`s, and `current_offset`.  (The offsets of the next parsers
are read nowhere.) -/
structure Parser where
  level : Level
  next : List Level
  offset : Nat
  deriving DecidableEq, Repr

/-- dfir_ntfs/ShadowCopy.py:681-715 and 1281-1341: a parser after its constructor. -/
def Parser.fresh : Parser := ⟨.fresh, [], 0⟩

/-! ### Selecting -/

/-- dfir_ntfs/ShadowCopy.py:788-804: what is left to do when the next parser is known. -/
def finishSelection (l : Level) (cbi2 bm pbm : Bytes) (da : List Entry) : Level :=
  { l with
    nullTargets := some (nullTargetsOf bm pbm da)                                         -- 794
    returnNull := some (decide (storeFlags cbi2 &&& 0x400 > 0))                           -- 801
    selected := true }                                                                    -- 803

/-- dfir_ntfs/ShadowCopy.py:736-803 and 1346-1416 `select_shadow` of the parser `l` with the next parsers `next`: what is raised, and what they are
then.  `depth` bounds the recursion. -/
def selectLevel (img : Image) (o : Opened) (fuel : Nat) : Nat → Key → Level → List Level → Option (Except Exc Unit × Level × List Level)
  | 0, _, _, _ => none
  | depth + 1, key, l, next =>
    match guidOfKey o key with
    | .error e => some (.error e, l, next)
    | .ok g =>
      match pickItems o g with
      | .error e => some (.error e, l, next)
      | .ok (cbi2, cbi3) =>
        let l := { l with size := some (volumeSize cbi2) }                                -- 770
        match readBitmap img.store (volumeSize cbi2) (bitmapOffset cbi3) fuel with
        | none => none
        | some (.error e) => some (.error e, l, next)
        | some (.ok bm) =>
          let l := { l with bitmap := some bm }                                           -- 771
          match readBitmap img.store (volumeSize cbi2) (previousBitmapOffset cbi3) fuel with
          | none => none
          | some (.error e) => some (.error e, l, next)
          | some (.ok pbm) =>
            let l := { l with previousBitmap := some pbm }                                -- 772
            match readLocations img.store (locationOffset cbi3) fuel with                 -- 773
            | none => none
            | some (.error e) => some (.error e, l, next)
            | some (.ok _) =>
              match readApplication img.store (applicationOffset cbi3) with               -- 774
              | .error e => some (.error e, l, next)
              | .ok _ =>
                match readDiffArea img.store (diffAreaOffset cbi3) fuel with
                | none => none
                | some (.error e) => some (.error e, l, next)
                | some (.ok da) =>
                  let l := { l with diffArea := some da }                                 -- 775
                  match selectLevel img o fuel depth (.position (stackPosition cbi2 + 1)) .fresh [] with  -- 789
                  | none => none
                  | some (.ok (), n, newer) => some (.ok (), finishSelection l cbi2 bm pbm da, n :: newer)
                  | some (.error e, n, newer) =>
                    if e = .ShadowCopyNotFoundException then some (.ok (), finishSelection l cbi2 bm pbm da, [])  -- 791
                    else some (.error e, l, n :: newer)

/-- dfir_ntfs/ShadowCopy.py:730-804 and 1343-1417 `select_shadow` of an opened parser: what is raised, and the parser afterwards. -/
def selectShadow (img : Image) (o : Opened) (fuel : Nat) (key : Key) (p : Parser) : Option (Except Exc Unit × Parser) :=
  if o.useSecondVolume ∧ img.storage = none then some (.error .NotImplementedError, p)    -- 733
  else
    match selectLevel img o fuel fuel key p.level p.next with
    | none => none
    | some (.ok (), l, next) => some (.ok (), ⟨l, next, 0⟩)                                -- 804
    | some (.error e, l, next) => some (.error e, ⟨l, next, p.offset⟩)

/-! ### Reading -/

/-- dfir_ntfs/ShadowCopy.py:1005-1025: the loop of `can_switch_to_next_store`; a next parser whose metadata was not read has no index
(`None.keys()`). -/
def switchAlong (offset : Nat) : List Level → Except Exc Nat
  | [] => .ok 0
  | l :: rest =>
    match l.diffArea with
    | none => .error .AttributeError
    | some _ => if (l.store.entriesAt offset).any (fun e => decide (e.flags &&& 2 = 0)) then .ok 1 else switchAlong offset rest

/-- dfir_ntfs/ShadowCopy.py:1000-1025 `can_switch_to_next_store`. -/
def switchOf (next : List Level) (offset : Nat) : Except Exc Nat :=
  match next with
  | [] => .ok 2
  | _ => switchAlong offset next

/-- dfir_ntfs/ShadowCopy.py:974-1129 and 1567-1718 `translate_exact_offset` of a parser (the first one) with its next parsers.  The check of
`shadow_selected` (1033) comes after two others that raise the same. -/
def translateLevels (volumeSize : Option Nat) : List Level → Nat → Bool → Bool → Except Exc (List Source)
  | [], _, _, _ => .error .ValueError
  | l :: next, offset, ignoreOverlays, forwardLookup =>
    if l.selected then
      translateBody volumeSize l.store (switchOf next offset) (fun o f =>
        match next with
        | [] => .ok (lookupInVolume l.store o f)
        | _ :: _ => translateLevels volumeSize next o true f) offset ignoreOverlays forwardLookup
    else .error .ValueError                                                               -- 1033

/-- dfir_ntfs/ShadowCopy.py:1131-1175, 1720-1749 `read_at_exact_offset`. -/
def Parser.block (img : Image) (p : Parser) (fill : Bool) (offset : Nat) : Except Exc Bytes :=
  match translateLevels img.volumeSize (p.level :: p.next) offset false false with
  | .error e => .error e
  | .ok sources => if fill then fillSources img offset 0 sources else readSources img sources

/-- dfir_ntfs/ShadowCopy.py:1212-1253, 1751-1797 `read`: what is returned or raised, and the parser afterwards. -/
def Parser.read (img : Image) (p : Parser) (fill : Bool) (size : Option Int) : Except Exc Bytes × Parser :=
  if fill = true ∧ img.storage.isSome then (.error .NotImplementedError, p)               -- 1758
  else if p.level.selected then
    let limit := virtualSize img p.level.store
    let size := readSize limit p.offset size
    if size ≤ 0 ∨ p.offset ≥ limit then (.ok [], p)                                       -- 1227
    else
      match p.block img fill (p.offset / 0x4000 * 0x4000) with
      | .error e => (.error e, p)
      | .ok d =>
        let data := slice d (p.offset % 0x4000) (p.offset % 0x4000 + size.toNat)          -- 1233
        let r := readLoopBy (p.block img fill) limit (p.offset + data.length) (size.toNat - data.length) data
        (r.1, { p with offset := r.2 })
  else (.error .ValueError, p)                                                            -- 1217

/-- dfir_ntfs/ShadowCopy.py:1177-1202 `seek`: the position that is returned, and the parser afterwards. -/
def Parser.seek (img : Image) (p : Parser) (offset whence : Int) : Except Exc Nat × Parser :=
  if p.level.selected then
    match ShadowCopy.seek img p.level.store p.offset offset whence with
    | .ok n => (.ok n, { p with offset := n })
    | .error e => (.error e, p)
  else (.error .ValueError, p)                                                            -- 1180

/-- dfir_ntfs/ShadowCopy.py:1204-1210 `tell`. -/
def Parser.tell (p : Parser) : Except Exc Nat := if p.level.selected then .ok p.offset else .error .ValueError

/-! ### A history of calls -/

/-- dfir_ntfs/ShadowCopy.py:730-1253: the methods of a parser, with their arguments. -/
inductive Call where
  | select (key : Key)
  | seek (offset whence : Int)
  | tell
  | read (size : Option Int) (fill : Bool)
  deriving DecidableEq, Repr

/-- dfir_ntfs/ShadowCopy.py:730-1253: what a method returns or raises. -/
inductive Answer where
  | nothing
  | position (n : Nat)
  | data (d : Bytes)
  | raised (e : Exc)
  deriving DecidableEq, Repr

/-- dfir_ntfs/ShadowCopy.py:730-1253: one call of a method of the parser `p`. -/
def call (img : Image) (o : Opened) (fuel : Nat) (p : Parser) : Call → Option (Answer × Parser)
  | .select key =>
    match selectShadow img o fuel key p with
    | none => none
    | some (.ok (), p) => some (.nothing, p)
    | some (.error e, p) => some (.raised e, p)
  | .seek offset whence =>
    match p.seek img offset whence with
    | (.ok n, p) => some (.position n, p)
    | (.error e, p) => some (.raised e, p)
  | .tell =>
    match p.tell with
    | .ok n => some (.position n, p)
    | .error e => some (.raised e, p)
  | .read size fill =>
    match p.read img fill size with
    | (.ok d, p) => some (.data d, p)
    | (.error e, p) => some (.raised e, p)

/-- dfir_ntfs/ShadowCopy.py:730-1253: the answers to a sequence of calls, where the caller goes on after an exception, and the parser after them. -/
def calls (img : Image) (o : Opened) (fuel : Nat) : Parser → List Call → Option (List Answer × Parser)
  | p, [] => some ([], p)
  | p, c :: rest =>
    match call img o fuel p c with
    | none => none
    | some (a, p) =>
      match calls img o fuel p rest with
      | none => none
      | some (as, p) => some (a :: as, p)

end Verif.ShadowCopy
