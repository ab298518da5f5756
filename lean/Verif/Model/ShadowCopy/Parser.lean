/-
Model of dfir_ntfs/ShadowCopy.py:624-1262 (`ShadowParser`) and 1264-1783 (`ShadowParserTwoVolumes`):
opening a volume, selecting a shadow copy, and reading it.

The two classes are almost the same code: the second one keeps the metadata and the copied blocks on another
volume, and marks every 512-byte source with the volume it is on.  One model covers both: an `Image` says
which volume is read for what, and the sources are always marked.  `ShadowParser` reads both kinds of
sources from the same volume, so the mark makes no difference there.  Not modelled here: the debugging option
`debug_fill` (see `Fill.lean`), the object that is left when a selection fails (see `Object.lean`), `close`, `__str__`.
-/
import Verif.Basic.Sort
import Verif.Model.ShadowCopy.Blocks
namespace Verif.ShadowCopy

/-- The volume with the file system (and `volume_offset`, `volume_size`), and the volume with the shadow
copies: `none` for `ShadowParser` (dfir_ntfs/ShadowCopy.py:678-689), the volume and its offset for
`ShadowParserTwoVolumes` (1279-1299). -/
structure Image where
  volume : Bytes
  volumeOffset : Nat
  volumeSize : Option Nat
  storage : Option (Bytes × Nat)

/-- dfir_ntfs/ShadowCopy.py:681-715 and 1281-1341: `self.volume_object` and `self.volume_offset`, or `self.volume_storage_object` and
`self.volume_storage_offset`: where the metadata and the copied blocks are read. -/
def Image.store (img : Image) : Bytes × Nat := img.storage.getD (img.volume, img.volumeOffset)

/-! ### Chains of blocks -/

/-- The loops of dfir_ntfs/ShadowCopy.py:705-715, 821-833, 852-864, 873-885, 912-943 (and 1318-1341, 1434-1446, 1465-1477, 1486-1498, 1525-1556): follow a chain of
blocks of the kind `k` from the volume offset `offset` and collect what `f` makes of each block.  Nothing
stops the loop on a cyclic chain: it is run with a bound `fuel` on the number of blocks, and `none` means
that the bound was reached. -/
def chain {α : Type} (vol : Bytes × Nat) (k : Kind) (f : Bytes → Except Exc α) : Nat → Nat → Option (Except Exc (List α))
  | fuel, offset =>
    if offset = 0 then some (.ok [])
    else
      match fuel with
      | 0 => none
      | fuel + 1 =>
        match seekRead vol.1 (vol.2 + offset) 0x4000 with
        | .error e => some (.error e)
        | .ok buf =>
          match block k buf with
          | .error e => some (.error e)
          | .ok () =>
            if offset2 buf ≠ offset then some (.ok [])
            else
              match f buf with
              | .error e => some (.error e)
              | .ok a =>
                match chain vol k f fuel (offset3 buf) with
                | none => none
                | some (.error e) => some (.error e)
                | some (.ok rest) => some (.ok (a :: rest))

/-! ### Opening -/

/-- dfir_ntfs/ShadowCopy.py:681-715 and 1281-1341: What the constructors keep: `control_blocks` and `control_blocks_storage` (for `ShadowParser` the latter
is the same list, as all the items are looked for in `control_blocks`), and `use_second_volume`. -/
structure Opened where
  controlBlocks : List Bytes
  storageBlocks : List Bytes
  useSecondVolume : Bool
  deriving DecidableEq, Repr

/-- `except ShadowCopyException: raise ShadowCopiesDisabledException(…)` (dfir_ntfs/ShadowCopy.py:696-699,
1302-1306). -/
def disabled {α : Type} : Except Exc α → Except Exc α
  | .error e => .error (if isShadowCopyException e then .ShadowCopiesDisabledException else e)
  | .ok a => .ok a

/-- dfir_ntfs/ShadowCopy.py:703-715: the list of the control blocks of a volume that starts with `buf`. -/
def controlBlocks (vol : Bytes × Nat) (buf : Bytes) (fuel : Nat) : Option (Except Exc (List Bytes)) :=
  match firstControlBlockOffset buf with
  | .error e => some (.error e)
  | .ok first => chain vol .control (fun b => .ok b) fuel first

/-- dfir_ntfs/ShadowCopy.py:678-715 and 1279-1338: the constructors. -/
def openVolume (img : Image) (fuel : Nat) : Option (Except Exc Opened) :=
  match seekRead img.volume img.volumeOffset 8192 with
  | .error e => some (.error e)
  | .ok buf =>
    match img.storage with
    | none =>
      match disabled (startBlock buf) with
      | .error e => some (.error e)
      | .ok () =>
        match controlBlocks (img.volume, img.volumeOffset) buf fuel with
        | none => none
        | some (.error e) => some (.error e)
        | some (.ok cbs) => some (.ok ⟨cbs, cbs, !isStorageLocal buf⟩)
    | some (storage, storageOffset) =>
      match seekRead storage storageOffset 8192 with
      | .error e => some (.error e)
      | .ok sbuf =>
        match disabled (startBlock buf) with
        | .error e => some (.error e)
        | .ok () =>
          match disabled (startBlock sbuf) with
          | .error e => some (.error e)
          | .ok () =>
            if isStorageLocal buf then some (.error .NotImplementedError)                 -- 1309
            else
              match controlBlocks (img.volume, img.volumeOffset) buf fuel with
              | none => none
              | some (.error e) => some (.error e)
              | some (.ok cbs) =>
                match controlBlocks (storage, storageOffset) sbuf fuel with
                | none => none
                | some (.error e) => some (.error e)
                | some (.ok sbs) => some (.ok ⟨cbs, sbs, true⟩)

/-! ### The differential area -/

/-- dfir_ntfs/ShadowCopy.py:910 and 1523: The dictionary `forward_context`. -/
abbrev Context := List (Nat × Nat)
/-- dfir_ntfs/ShadowCopy.py:923-924. -/
def Context.get (c : Context) (k : Nat) : Option Nat := (c.find? (·.1 = k)).map (·.2)
/-- dfir_ntfs/ShadowCopy.py:928. -/
def Context.del (c : Context) (k : Nat) : Context := c.filter (·.1 ≠ k)
/-- dfir_ntfs/ShadowCopy.py:932. -/
def Context.set (c : Context) (k v : Nat) : Context := (k, v) :: c.del k

/-- dfir_ntfs/ShadowCopy.py:934-939: the loop over a copy of the list, `items.remove(x)` removes the first
item that is equal to `x`. -/
def removeRegular (offset : Nat) : List Entry → List Entry → List Entry
  | [], items => items
  | x :: copy, items =>
    if x.flags &&& (1 ||| 2) ≠ 0 then removeRegular offset copy items
    else if x.original = offset then removeRegular offset copy (items.erase x)
    else removeRegular offset copy items

/-- dfir_ntfs/ShadowCopy.py:923-928: replace the original volume offset of an entry. -/
def retarget (ctx : Context) (e : Entry) : Entry × Context :=
  match ctx.get e.original with
  | some new => if e.flags &&& 2 = 0 then ({ e with original := new }, ctx.del e.original) else (e, ctx)
  | none => (e, ctx)

/-- dfir_ntfs/ShadowCopy.py:922-941: the body of the loop over the entries. -/
def loadStep (st : List Entry × Context) (e0 : Entry) : List Entry × Context :=
  let (e, ctx) := retarget st.2 e0
  if e.flags &&& 1 > 0 then
    if e.original ≠ e.inStore then (st.1 ++ [e], ctx.set e.inStore e.original)            -- 932
    else (removeRegular e.original st.1 st.1 ++ [e], ctx)
  else (st.1 ++ [e], ctx)

/-- dfir_ntfs/ShadowCopy.py:907-947: the entries of all the tables of a store, in the order of the chain, to
the list that is returned.  (The code runs this while it reads the tables; an exception raised there
discards everything, so the order does not matter.) -/
def loadEntries (es : List Entry) : List Entry :=
  sortBy (fun e => (e.original : Int)) (es.foldl loadStep ([], [])).1                     -- 945

/-- dfir_ntfs/ShadowCopy.py:905-947 `read_diff_area`. -/
def readDiffArea (vol : Bytes × Nat) (offset fuel : Nat) : Option (Except Exc (List Entry)) :=
  match chain vol .diffArea diffAreaEntries fuel offset with
  | none => none
  | some (.error e) => some (.error e)
  | some (.ok tables) => some (.ok (loadEntries tables.flatten))

/-- dfir_ntfs/ShadowCopy.py:806-835 and 1419-1448 `read_bitmap`, 837-866 and 1450-1479 `read_previous_bitmap`. -/
def readBitmap (vol : Bytes × Nat) (size offset fuel : Nat) : Option (Except Exc Bytes) :=
  let size := if size % 0x4000 ≠ 0 then size + 0x4000 - size % 0x4000 else size
  let bits := size / 0x4000
  let bits := if bits % 8 ≠ 0 then bits + 8 - bits % 8 else bits
  match chain vol .bitmap (fun b => .ok (slice b 0x80 0x4000)) fuel offset with
  | none => none
  | some (.error e) => some (.error e)
  | some (.ok chunks) => some (.ok (slice chunks.flatten 0 (bits / 8)))

/-- dfir_ntfs/ShadowCopy.py:868-887 and 1481-1500 `read_location_description_items`. -/
def readLocations (vol : Bytes × Nat) (offset fuel : Nat) : Option (Except Exc (List Location)) :=
  match chain vol .location locations fuel offset with
  | none => none
  | some (.error e) => some (.error e)
  | some (.ok l) => some (.ok l.flatten)

/-- dfir_ntfs/ShadowCopy.py:889-903 and 1502-1516 `read_application_information`. -/
def readApplication (vol : Bytes × Nat) (offset : Nat) : Except Exc Bytes :=
  if offset > 0 then
    match seekRead vol.1 (vol.2 + offset) 0x4000 with
    | .error e => .error e
    | .ok buf =>
      match applicationBlock buf with
      | .error e => .error e
      | .ok () => if offset2 buf ≠ offset then .ok [] else .ok (slice buf 0x80 0x4000)
  else .ok []

/-! ### Selecting -/

/-- dfir_ntfs/ShadowCopy.py:730-804 and 1343-1417: What a parser with a selected shadow copy keeps, except for the next parser and the position. -/
structure Store where
  currentSize : Nat
  bitmap : Bytes
  previousBitmap : Bytes
  diffArea : List Entry
  nullTargets : List Nat
  returnNull : Bool
  deriving DecidableEq, Repr

/-- One bit of a bitmap: `(bitmap[byte_pos] >> bit_shift) & 1 > 0`, or `None` on an `IndexError`. -/
def bitAt (bitmap : Bytes) (offset : Nat) : Option Bool :=
  (bitmap[offset / 0x4000 / 8]?).map fun b => decide (b.toNat >>> (offset / 0x4000 % 8) &&& 1 > 0)

/-- dfir_ntfs/ShadowCopy.py:949-972 `check_bitmap` (always called with the default arguments, and the
previous bitmap is never `None`). -/
def checkBitmap (bitmap previousBitmap : Bytes) (offset : Nat) : Bool :=
  let result1 := (bitAt bitmap offset).getD false
  match bitAt previousBitmap offset with
  | none => result1
  | some result2 => result1 && result2

/-- dfir_ntfs/ShadowCopy.py:949. -/
def Store.checkBitmap (s : Store) (offset : Nat) : Bool := ShadowCopy.checkBitmap s.bitmap s.previousBitmap offset

/-- dfir_ntfs/ShadowCopy.py:730-804 and 1343-1417: `for control_block in …: for control_block_item in control_block.items()`, over everything. -/
def allItems : List Bytes → Gen Item
  | [] => .done
  | b :: rest => (items b).append (allItems rest)

/-- dfir_ntfs/ShadowCopy.py:730-804: What select_shadow is called with. -/
inductive Key where
  | guid (raw : Bytes)
  | position (n : Nat)
  deriving DecidableEq, Repr

/-- dfir_ntfs/ShadowCopy.py:743-746: the first matching item of one block. -/
def guidInBlock (b : Bytes) (position : Nat) : Except Exc (Option Bytes) :=
  match (items b).items.findSome? (fun
      | .store raw => if stackPosition raw = position then some (storeGuid raw) else none
      | .location _ => none) with
  | some g => .ok (some g)
  | none => match (items b).err with | some e => .error e | none => .ok none

/-- dfir_ntfs/ShadowCopy.py:742-746: the `break` leaves the inner loop only, so a later block wins. -/
def guidOfPosition (position : Nat) : List Bytes → Option Bytes → Except Exc (Option Bytes)
  | [], found => .ok found
  | b :: rest, found =>
    match guidInBlock b position with
    | .error e => .error e
    | .ok g => guidOfPosition position rest (g.orElse fun _ => found)

/-- dfir_ntfs/ShadowCopy.py:736-746: `store_guid` (`None` matches nothing). -/
def guidOfKey (o : Opened) : Key → Except Exc (Option Bytes)
  | .guid g => .ok (some g)
  | .position n => guidOfPosition n o.controlBlocks none

/-- dfir_ntfs/ShadowCopy.py:730-804: The items of a kind with a GUID. -/
def matching2 (l : List Item) (g : Option Bytes) : List Bytes :=
  l.filterMap fun | .store raw => if some (storeGuid raw) = g then some raw else none | .location _ => none
/-- dfir_ntfs/ShadowCopy.py:730-804. -/
def matching3 (l : List Item) (g : Option Bytes) : List Bytes :=
  l.filterMap fun | .location raw => if some (storeGuid raw) = g then some raw else none | .store _ => none

/-- dfir_ntfs/ShadowCopy.py:748-767 and 1355-1380: the items of the shadow copy. -/
def pickItems (o : Opened) (g : Option Bytes) : Except Exc (Bytes × Bytes) :=
  match (allItems o.storageBlocks).err with
  | some e => .error e
  | none =>
    match (allItems o.controlBlocks).err with
    | some e => .error e
    | none =>
      let three := matching3 (allItems o.storageBlocks).items g
      let two := matching2 (allItems o.controlBlocks).items g
      if three.length ≠ two.length then .error .ShadowCopyException                       -- 760
      else
        match two, three with
        | [], [] => .error .ShadowCopyNotFoundException                                   -- 764
        | [cbi2], [cbi3] => .ok (cbi2, cbi3)
        | _, _ => .error .ShadowCopyException                                             -- 766

/-- dfir_ntfs/ShadowCopy.py:793-799: the set of the possible null targets. -/
def nullTargetsOf (bitmap previousBitmap : Bytes) (diffArea : List Entry) : List Nat :=
  (diffArea.filter fun e => decide (e.flags &&& 1 > 0) && checkBitmap bitmap previousBitmap e.inStore).map (·.inStore)

/-- dfir_ntfs/ShadowCopy.py:769-777, 793-801: the metadata of one store. -/
def readStore (img : Image) (cbi2 cbi3 : Bytes) (fuel : Nat) : Option (Except Exc Store) :=
  match readBitmap img.store (volumeSize cbi2) (bitmapOffset cbi3) fuel with              -- 771
  | none => none
  | some (.error e) => some (.error e)
  | some (.ok bm) =>
    match readBitmap img.store (volumeSize cbi2) (previousBitmapOffset cbi3) fuel with    -- 772
    | none => none
    | some (.error e) => some (.error e)
    | some (.ok pbm) =>
      match readLocations img.store (locationOffset cbi3) fuel with                       -- 773
      | none => none
      | some (.error e) => some (.error e)
      | some (.ok _) =>
        match readApplication img.store (applicationOffset cbi3) with                     -- 774
        | .error e => some (.error e)
        | .ok _ =>
          match readDiffArea img.store (diffAreaOffset cbi3) fuel with                    -- 775
          | none => none
          | some (.error e) => some (.error e)
          | some (.ok da) =>
            some (.ok ⟨volumeSize cbi2, bm, pbm, da, nullTargetsOf bm pbm da, decide (storeFlags cbi2 &&& 0x400 > 0)⟩)

/-- dfir_ntfs/ShadowCopy.py:730-804 and 1340-1421 `select_shadow`: the stores, from the selected one to the
newest one (`current_next_parser`, which reads the same volume again).  `depth` bounds the recursion. -/
def selectStores (img : Image) (o : Opened) (fuel : Nat) : Nat → Key → Option (Except Exc (List Store))
  | 0, _ => none
  | depth + 1, key =>
    match guidOfKey o key with
    | .error e => some (.error e)
    | .ok g =>
      match pickItems o g with
      | .error e => some (.error e)
      | .ok (cbi2, cbi3) =>
        match readStore img cbi2 cbi3 fuel with
        | none => none
        | some (.error e) => some (.error e)
        | some (.ok s) =>
          match selectStores img o fuel depth (.position (stackPosition cbi2 + 1)) with   -- 789
          | none => none
          | some (.ok next) => some (.ok (s :: next))
          | some (.error e) => if e = .ShadowCopyNotFoundException then some (.ok [s]) else some (.error e)

/-- dfir_ntfs/ShadowCopy.py:730: `ShadowParser` refuses a volume with its shadow copies elsewhere (733). -/
def select (img : Image) (fuel : Nat) (key : Key) : Option (Except Exc (List Store)) :=
  match openVolume img fuel with
  | none => none
  | some (.error e) => some (.error e)
  | some (.ok o) =>
    if o.useSecondVolume ∧ img.storage = none then some (.error .NotImplementedError)
    else selectStores img o fuel fuel key

/-! ### Translating offsets -/

/-- One 512-byte source: `None`, an offset in the volume, or an offset in the volume with the shadow copies
(dfir_ntfs/ShadowCopy.py:975-979, 1567-1573). -/
inductive Source where
  | zero
  | volume (offset : Nat)
  | store (offset : Nat)
  deriving DecidableEq, Repr

/-- The original offsets of a block (986-987 and other places). -/
def originalSources (offset : Nat) : List Source := (List.range 32).map fun i => .volume (offset + i * 512)
/-- dfir_ntfs/ShadowCopy.py:974-1129 (a block of zeros). -/
def zeroSources : List Source := List.replicate 32 .zero
/-- The offsets of a copied block (1102-1103). -/
def blockSources (offset : Nat) : List Source := (List.range 32).map fun i => .store (offset + i * 512)

/-- dfir_ntfs/ShadowCopy.py:974-1129: `if p(i): l[i] = src(i)`, with the `IndexError`s. -/
def overwriteStep (p : Nat → Bool) (src : Nat → Except Exc Source) (l : List Source) (i : Nat) : Except Exc (List Source) :=
  if p i then
    match src i with
    | .error e => .error e
    | .ok x => if i < l.length then .ok (l.set i x) else .error .IndexError
  else .ok l

/-- `for i in range(0, 32): if p(i): l[i] = src(i)`. -/
def overwrite (l : List Source) (p : Nat → Bool) (src : Nat → Except Exc Source) : Except Exc (List Source) :=
  (List.range 32).foldlM (overwriteStep p src) l

/-- `(bitmap >> i) & 1 > 0`. -/
def sectorBit (bitmap i : Nat) : Bool := decide (bitmap >>> i &&& 1 > 0)

/-- The entries at an offset: the walk from `current_diff_area_index[offset]` (the position of the first one)
while the offset is the same (dfir_ntfs/ShadowCopy.py:1049-1061). -/
def Store.entriesAt (s : Store) (offset : Nat) : List Entry :=
  (s.diffArea.dropWhile (fun e => decide (e.original ≠ offset))).takeWhile (fun e => decide (e.original = offset))

/-- dfir_ntfs/ShadowCopy.py:1000-1025 `can_switch_to_next_store`. -/
def switchMode (next : List Store) (offset : Nat) : Nat :=
  match next with
  | [] => 2
  | _ => if next.any (fun s => (s.entriesAt offset).any (fun e => decide (e.flags &&& 2 = 0))) then 1 else 0

/-- The variables of the loop at dfir_ntfs/ShadowCopy.py:1054-1107. -/
structure Scan where
  newOffsets : List Source
  cumulative : Nat
  forward : Option Nat
  regular : Bool
  overlay : Bool
  deriving DecidableEq, Repr

/-- dfir_ntfs/ShadowCopy.py:1054-1107: the body of the loop; `fill` is what 1078-1088 put into an empty
list. -/
def scanEntry (ignoreOverlays : Bool) (fill : Except Exc (List Source)) (st : Scan) (e : Entry) : Except Exc Scan :=
  if e.flags &&& 1 > 0 ∧ e.original ≠ e.inStore then .ok { st with forward := some e.inStore }   -- 1067-1071
  else if e.flags &&& 2 > 0 then                                                          -- 1073
    if ignoreOverlays then .ok { st with overlay := true }
    else
      match (if st.newOffsets.length = 0 then fill else .ok st.newOffsets) with           -- 1077
      | .error x => .error x
      | .ok l =>
        match overwrite l (sectorBit e.bitmap) (fun i => .ok (.store (e.dataBlock + i * 512))) with
        | .error x => .error x
        | .ok l => .ok { st with newOffsets := l, cumulative := st.cumulative ||| e.bitmap, overlay := true }
  else if st.newOffsets.length = 0 then
    .ok { st with newOffsets := blockSources e.dataBlock, regular := true }               -- 1101
  else
    match overwrite st.newOffsets (fun i => !sectorBit st.cumulative i) (fun i => .ok (.store (e.dataBlock + i * 512))) with
    | .error x => .error x
    | .ok l => .ok { st with newOffsets := l, regular := true }                           -- 1105

/-- dfir_ntfs/ShadowCopy.py:982-996: `lookup_in_next_store` of the newest store. -/
def lookupInVolume (s : Store) (offset : Nat) (forwardLookup : Bool) : List Source :=
  if !s.checkBitmap offset then originalSources offset
  else if s.returnNull && !forwardLookup then zeroSources
  else originalSources offset

/-- dfir_ntfs/ShadowCopy.py:1114, 1703: `forward_offsets[i]`. -/
def sourceAt (l : List Source) (i : Nat) : Except Exc Source :=
  match l[i]? with
  | some x => .ok x
  | none => .error .IndexError

/-- dfir_ntfs/ShadowCopy.py:1027-1129 and 1620-1718: the body of `translate_exact_offset` of one store.
`switch` is what `can_switch_to_next_store` returns, `lookup` is `lookup_in_next_store`; `volumeSize` is the
argument of the constructor. -/
def translateBody (volumeSize : Option Nat) (s : Store) (switch : Except Exc Nat) (lookup : Nat → Bool → Except Exc (List Source))
    (offset : Nat) (ignoreOverlays forwardLookup : Bool) : Except Exc (List Source) :=
  if offset % 0x4000 ≠ 0 then .error .ValueError                                          -- 1027
  else if volumeSize.any (fun n => decide (offset ≥ n)) then .error .ValueError           -- 1030
  else if offset ≥ s.currentSize ∧ volumeSize.any (fun n => decide (s.currentSize > n)) then .ok []  -- 1036
  else
    match switch with
    | .error e => .error e
    | .ok mode =>
    let bit := s.checkBitmap offset
    let fill :=
      if mode = 1 then lookup offset false
      else if !bit then .ok (originalSources offset)
      else if s.returnNull then .ok zeroSources
      else .ok (originalSources offset)
    match (s.entriesAt offset).foldlM (scanEntry ignoreOverlays fill) ⟨[], 0, none, false, false⟩ with
    | .error e => .error e
    | .ok st =>
      let finish := fun (newOffsets : List Source) =>
        if !st.regular && !forwardLookup && decide (offset ∈ s.nullTargets) && mode == 0 && s.returnNull then .ok zeroSources -- 1118
        else if st.forward.isNone && !st.regular && !st.overlay && bit && mode == 0 && s.returnNull then .ok zeroSources -- 1122
        else if newOffsets.length = 0 then lookup offset false                            -- 1126
        else .ok newOffsets
      match st.forward with
      | some target =>
        if st.regular then finish st.newOffsets
        else if st.overlay && !ignoreOverlays then                                        -- 1110
          match lookup target true with
          | .error e => .error e
          | .ok forwarded =>
            match overwrite st.newOffsets (fun i => !sectorBit st.cumulative i)
                (sourceAt forwarded) with
            | .error e => .error e
            | .ok l => finish l
        else lookup target true                                                           -- 1116
      | none => finish st.newOffsets

/-- dfir_ntfs/ShadowCopy.py:1027-1129 and 1620-1718: the same when the newer stores `next` have all been read. -/
def translateIn (volumeSize : Option Nat) (s : Store) (next : List Store) (lookup : Nat → Bool → Except Exc (List Source))
    (offset : Nat) (ignoreOverlays forwardLookup : Bool) : Except Exc (List Source) :=
  translateBody volumeSize s (.ok (switchMode next offset)) lookup offset ignoreOverlays forwardLookup

/-- dfir_ntfs/ShadowCopy.py:974-998, 1027-1129 and 1567-1718 `translate_exact_offset`, with
`lookup_in_next_store`.  The list of the stores starts with the selected one. -/
def translate (volumeSize : Option Nat) : List Store → Nat → Bool → Bool → Except Exc (List Source)
  | [], _, _, _ => .error .ValueError                                                     -- 1033
  | s :: next, offset, ignoreOverlays, forwardLookup =>
    translateIn volumeSize s next (fun o f =>
      match next with
      | [] => .ok (lookupInVolume s o f)
      | _ :: _ => translate volumeSize next o true f) offset ignoreOverlays forwardLookup

/-! ### Reading -/

/-- dfir_ntfs/ShadowCopy.py:1144-1151, 1730-1749: the bytes of one source. -/
def readSource (img : Image) : Source → Except Exc Bytes
  | .zero => .ok (zeros 512)
  | .volume offset => seekRead img.volume (img.volumeOffset + offset) 512
  | .store offset => seekRead img.store.1 (img.store.2 + offset) 512

/-- dfir_ntfs/ShadowCopy.py:1143-1154: the loop over the sources. -/
def readSources (img : Image) : List Source → Except Exc Bytes
  | [] => .ok []
  | x :: rest =>
    match readSource img x with
    | .error e => .error e
    | .ok d =>
      if d.length ≠ 512 then .ok d                                                        -- 1153
      else match readSources img rest with | .error e => .error e | .ok ds => .ok (d ++ ds)

/-- dfir_ntfs/ShadowCopy.py:1131-1175, 1720-1749 `read_at_exact_offset`. -/
def readBlock (img : Image) (stores : List Store) (offset : Nat) : Except Exc Bytes :=
  match translate img.volumeSize stores offset false false with
  | .error e => .error e
  | .ok sources => readSources img sources

/-- dfir_ntfs/ShadowCopy.py:1190-1192, 1220-1222: the size of the virtual volume. -/
def virtualSize (img : Image) (s : Store) : Nat :=
  match img.volumeSize with
  | some n => if s.currentSize > n then n else s.currentSize
  | none => s.currentSize

/-- dfir_ntfs/ShadowCopy.py:1177-1202 `seek` (with a selected shadow copy): the new position. -/
def seek (img : Image) (s : Store) (position : Nat) (offset : Int) (whence : Int) : Except Exc Nat :=
  let target := fun (n : Int) => if n < 0 then Except.error Exc.ValueError else .ok n.toNat
  if whence = 0 then target offset
  else if whence = 1 then target (position + offset)
  else if whence = 2 then target (virtualSize img s + offset)
  else .error .ValueError

/-- dfir_ntfs/ShadowCopy.py:1236-1251: the loop of `read`.  `left` is `bytes_left`; every round but the last
one reads a whole block, so `left` gets smaller. -/
def readLoop (img : Image) (stores : List Store) (size : Nat) (position left : Nat) (data : Bytes) : Except Exc Bytes × Nat :=
  if left = 0 then (.ok data, position)
  else if position ≥ size then (.ok data, position)                                       -- 1238
  else
    match readBlock img stores (position / 0x4000 * 0x4000) with
    | .error e => (.error e, position)
    | .ok d =>
      let new := slice d (position % 0x4000) (position % 0x4000 + left)
      if _h : new.length = 0x4000 then                                                    -- 1250
        readLoop img stores size (position + new.length) (left - new.length) (data ++ new)
      else (.ok (data ++ new), position + new.length)
termination_by left
decreasing_by
  have : (slice d (position % 0x4000) (position % 0x4000 + left)).length = 0x4000 := _h
  omega

/-- dfir_ntfs/ShadowCopy.py:1224-1225: `if size is None or size < 0: size = volume_size - self.current_offset`. -/
def readSize (limit position : Nat) : Option Int → Int
  | none => (limit : Int) - position
  | some n => if n < 0 then (limit : Int) - position else n

/-- dfir_ntfs/ShadowCopy.py:1212-1253, 1751-1793 `read` of a parser with a selected shadow copy: the result
and the new position.  `none` is the argument `None`. -/
def read (img : Image) (stores : List Store) (position : Nat) (size : Option Int) : Except Exc Bytes × Nat :=
  match stores with
  | [] => (.error .ValueError, position)                                                  -- 1217
  | s :: _ =>
    let limit := virtualSize img s
    let size := readSize limit position size
    if size ≤ 0 ∨ position ≥ limit then (.ok [], position)                                -- 1227
    else
      match readBlock img stores (position / 0x4000 * 0x4000) with
      | .error e => (.error e, position)
      | .ok d =>
        let data := slice d (position % 0x4000) (position % 0x4000 + size.toNat)          -- 1233
        readLoop img stores limit (position + data.length) (size.toNat - data.length) data

end Verif.ShadowCopy
