/-
C129 and C130: a volume with three shadow copies, the second of which is damaged.
-/
import Verif.Props.C129
import Verif.Proof.SampleShadow
namespace Verif.Props.Reselect
open Verif.ShadowCopy Verif.Spec.Shadow
open Verif.SampleShadow (header start start_length zeros_length read_start chain_single chain_zero open_single block_head u64_head u32_head)

/-- The two slots of a shadow copy: its size, the byte that its GUID consists of, its stack position; and where its table is. -/
def slot2 (size : Nat) (g : UInt8) (position : Nat) : Bytes := [natLE 8 2, natLE 8 size, List.replicate 16 g, natLE 8 position, zeros 88].flatten
def slot3 (table : Nat) (g : UInt8) : Bytes := [natLE 8 3, natLE 8 table, List.replicate 16 g, zeros 96].flatten

/-- Three shadow copies, of one, two and three blocks.  The table of the second one would be beyond the end of the volume. -/
def threeControl : Bytes := [header 2 0 0x4000 0, zeros 80, slot2 0x4000 1 3, slot3 0 1, slot2 0x8000 2 2, slot3 0x8000 2, slot2 0xC000 3 1, slot3 0 3].flatten

def threeBlock : Bytes := threeControl ++ zeros 15488
def threeVolume : Bytes := start ++ (zeros 0x2000 ++ threeBlock)
def threeImage : Image := ⟨threeVolume, 0, none, none⟩
def threeOpened : Opened := ⟨[threeBlock], [threeBlock], false⟩

theorem threeControl_length : threeControl.length = 896 := by decide +kernel
theorem threeBlock_length : threeBlock.length = 0x4000 := by unfold threeBlock; rw [List.length_append, threeControl_length, zeros_length]
theorem threeVolume_length : threeVolume.length = 0x8000 := by
  unfold threeVolume; rw [List.length_append, List.length_append, start_length, zeros_length, threeBlock_length]

theorem items_store (h t : Bytes) (off : Nat) (raw : Bytes) (ho : off + 0x80 ≤ h.length) (hl : off < 0x4000) (hr : slice h off (off + 0x80) = raw)
    (h1 : u32 h off = 2) (hv : volumeSize raw ≠ 0) : itemsLoop (h ++ t) off = .cons (.store raw) (itemsLoop (h ++ t) (off + 0x80)) := by
  have hs : slice (h ++ t) off (off + 0x80) = raw := by rw [slice_append_left _ _ _ _ (by omega), hr]
  have h4 : (slice (h ++ t) off (off + 4)).length = 4 := by rw [slice_length, List.length_append]; omega
  have h5 : raw.length = 0x80 := by rw [← hr, slice_length]; omega
  rw [itemsLoop, if_pos hl, h4, if_neg (by simp), u32_head _ _ _ (by omega), h1, if_neg (by decide), if_neg (by decide), if_neg (by decide)]
  dsimp only
  rw [hs, h5, if_neg (by simp), if_pos rfl, if_neg hv]

theorem items_location (h t : Bytes) (off : Nat) (raw : Bytes) (ho : off + 0x80 ≤ h.length) (hl : off < 0x4000) (hr : slice h off (off + 0x80) = raw)
    (h1 : u32 h off = 3) : itemsLoop (h ++ t) off = .cons (.location raw) (itemsLoop (h ++ t) (off + 0x80)) := by
  have hs : slice (h ++ t) off (off + 0x80) = raw := by rw [slice_append_left _ _ _ _ (by omega), hr]
  have h4 : (slice (h ++ t) off (off + 4)).length = 4 := by rw [slice_length, List.length_append]; omega
  have h5 : raw.length = 0x80 := by rw [← hr, slice_length]; omega
  rw [itemsLoop, if_pos hl, h4, if_neg (by simp), u32_head _ _ _ (by omega), h1, if_neg (by decide), if_neg (by decide), if_neg (by decide)]
  dsimp only
  rw [hs, h5, if_neg (by simp), if_neg (by decide)]

theorem three_items : items threeBlock = ⟨[.store (slot2 0x4000 1 3), .location (slot3 0 1), .store (slot2 0x8000 2 2), .location (slot3 0x8000 2),
    .store (slot2 0xC000 3 1), .location (slot3 0 3)], none⟩ := by
  have h := threeControl_length
  unfold items threeBlock
  rw [items_store _ _ 0x80 (slot2 0x4000 1 3) (by omega) (by decide) (by decide +kernel) (by decide +kernel) (by decide +kernel),
    items_location _ _ _ (slot3 0 1) (by omega) (by decide) (by decide +kernel) (by decide +kernel),
    items_store _ _ _ (slot2 0x8000 2 2) (by omega) (by decide) (by decide +kernel) (by decide +kernel) (by decide +kernel),
    items_location _ _ _ (slot3 0x8000 2) (by omega) (by decide) (by decide +kernel) (by decide +kernel),
    items_store _ _ _ (slot2 0xC000 3 1) (by omega) (by decide) (by decide +kernel) (by decide +kernel) (by decide +kernel),
    items_location _ _ _ (slot3 0 3) (by omega) (by decide) (by decide +kernel) (by decide +kernel)]
  have hz : slice (threeControl ++ zeros 15488) (0x80 + 0x80 + 0x80 + 0x80 + 0x80 + 0x80 + 0x80) (0x80 + 0x80 + 0x80 + 0x80 + 0x80 + 0x80 + 0x80 + 4) = [0, 0, 0, 0] := by
    rw [slice_append_right _ _ _ _ (by rw [h]; omega), h]
    decide +kernel
  rw [itemsLoop, if_pos (by decide), hz, if_neg (by decide)]
  unfold u32
  rw [hz, if_pos (by decide)]
  rfl

theorem three_all : allItems [threeBlock] = ⟨[.store (slot2 0x4000 1 3), .location (slot3 0 1), .store (slot2 0x8000 2 2), .location (slot3 0x8000 2),
    .store (slot2 0xC000 3 1), .location (slot3 0 3)], none⟩ := by
  unfold allItems allItems
  rw [three_items]
  rfl

theorem three_read_start : seekRead threeVolume 0 8192 = .ok start := by
  rw [seekRead_ok (by decide) (by decide)]
  unfold threeVolume
  rw [slice_append_left _ _ _ _ (by rw [start_length]; omega), slice_all (by rw [start_length]; omega)]

theorem three_read_control : seekRead threeVolume 0x4000 0x4000 = .ok threeBlock := by
  rw [seekRead_ok (by decide) (by decide)]
  unfold threeVolume
  rw [slice_append_right _ _ _ _ (by rw [start_length]; omega), slice_append_right _ _ _ _ (by rw [zeros_length, start_length]; omega),
    start_length, zeros_length]
  exact congrArg Except.ok (slice_all (j := 0x4000) (Nat.le_of_eq threeBlock_length))

theorem three_open (fuel : Nat) : openVolume threeImage (fuel + 1) = some (.ok threeOpened) := by
  refine open_single threeVolume start (fuel + 1) _ three_read_start (by decide +kernel) (by decide +kernel) (by decide +kernel) ?_
  refine chain_single threeVolume .control (fun b => .ok b) fuel 0x4000 _ _ (by decide) three_read_control ?_ ?_ ?_ rfl
  · exact block_head .control threeControl (zeros 15488) threeBlock_length (by rw [threeControl_length]; omega)
      (by decide +kernel) (by decide +kernel) (by decide +kernel)
  · exact (u64_head _ _ _ (by rw [threeControl_length]; omega)).trans (by decide +kernel)
  · exact (u64_head _ _ _ (by rw [threeControl_length]; omega)).trans (by decide +kernel)

theorem three_guid (n : Nat) (g : Option Bytes) (h : ([slot2 0x4000 1 3, slot2 0x8000 2 2, slot2 0xC000 3 1].findSome? fun raw =>
    if stackPosition raw = n then some (storeGuid raw) else none) = g) : guidOfKey threeOpened (.position n) = .ok g := by
  subst h
  unfold guidOfKey guidOfPosition guidInBlock threeOpened
  dsimp only
  rw [three_items]
  dsimp only [List.findSome?]
  by_cases h1 : stackPosition (slot2 0x4000 1 3) = n
  · rw [if_pos h1]; rfl
  rw [if_neg h1]
  by_cases h2 : stackPosition (slot2 0x8000 2 2) = n
  · rw [if_pos h2]; rfl
  rw [if_neg h2]
  by_cases h3 : stackPosition (slot2 0xC000 3 1) = n
  · rw [if_pos h3]; rfl
  rw [if_neg h3]
  rfl

theorem three_pick (g : Option Bytes) (r : Except Exc (Bytes × Bytes))
    (h : (let three := matching3 [.store (slot2 0x4000 1 3), .location (slot3 0 1), .store (slot2 0x8000 2 2), .location (slot3 0x8000 2),
            .store (slot2 0xC000 3 1), .location (slot3 0 3)] g
          let two := matching2 [.store (slot2 0x4000 1 3), .location (slot3 0 1), .store (slot2 0x8000 2 2), .location (slot3 0x8000 2),
            .store (slot2 0xC000 3 1), .location (slot3 0 3)] g
          if three.length ≠ two.length then .error .ShadowCopyException
          else match two, three with
            | [], [] => .error .ShadowCopyNotFoundException
            | [cbi2], [cbi3] => .ok (cbi2, cbi3)
            | _, _ => .error .ShadowCopyException) = r) : pickItems threeOpened g = r := by
  subst h
  unfold pickItems
  rw [show threeOpened.storageBlocks = [threeBlock] from rfl, show threeOpened.controlBlocks = [threeBlock] from rfl, three_all]
  rfl

theorem bitmap_zero (f : Bytes) (n fuel : Nat) : readBitmap (f, 0) n 0 fuel = some (.ok []) := by
  unfold readBitmap
  rw [chain_zero]
  dsimp only
  unfold slice
  simp

theorem locations_zero (f : Bytes) (fuel : Nat) : readLocations (f, 0) 0 fuel = some (.ok []) := by
  unfold readLocations; rw [chain_zero]; rfl

theorem area_zero (f : Bytes) (fuel : Nat) : readDiffArea (f, 0) 0 fuel = some (.ok []) := by
  unfold readDiffArea; rw [chain_zero]; rfl

/-- The table of the second shadow copy cannot be read. -/
theorem three_area (fuel : Nat) : readDiffArea (threeVolume, 0) 0x8000 (fuel + 1) = some (.error .ShadowBlockException) := by
  unfold readDiffArea
  rw [chain, if_neg (by decide), Nat.zero_add, seekRead_ok (by decide) (by decide)]
  have h : slice threeVolume 0x8000 (0x8000 + 0x4000) = [] := by
    apply List.eq_nil_of_length_eq_zero
    rw [slice_length, threeVolume_length]
    decide
  rw [h]
  rfl

theorem selectLevel_good (f : Bytes) (o : Opened) (fuel depth : Nat) (key : Key) (l : Level) (next : List Level) (g : Option Bytes) (c2 c3 : Bytes)
    (hg : guidOfKey o key = .ok g) (hp : pickItems o g = .ok (c2, c3)) (h1 : bitmapOffset c3 = 0) (h2 : previousBitmapOffset c3 = 0)
    (h3 : locationOffset c3 = 0) (h4 : applicationOffset c3 = 0) (h5 : diffAreaOffset c3 = 0) (h6 : storeFlags c2 = 0) :
    selectLevel ⟨f, 0, none, none⟩ o fuel (depth + 1) key l next =
      match selectLevel ⟨f, 0, none, none⟩ o fuel depth (.position (stackPosition c2 + 1)) .fresh [] with
      | none => none
      | some (.ok (), n, newer) => some (.ok (), levelOf ⟨volumeSize c2, [], [], [], [], false⟩, n :: newer)
      | some (.error e, n, newer) =>
        if e = .ShadowCopyNotFoundException then some (.ok (), levelOf ⟨volumeSize c2, [], [], [], [], false⟩, [])
        else some (.error e, { l with size := some (volumeSize c2), bitmap := some [], previousBitmap := some [], diffArea := some [] }, n :: newer) := by
  rw [selectLevel, hg]
  dsimp only
  rw [hp]
  dsimp only
  rw [show Image.store ⟨f, 0, none, none⟩ = (f, 0) from rfl, h1, h2, h3, h4, h5, bitmap_zero, locations_zero]
  dsimp only
  rw [show readApplication (f, 0) 0 = .ok [] from rfl, area_zero]
  dsimp only
  unfold finishSelection
  rw [h6]
  rfl

theorem selectLevel_bad (o : Opened) (fuel depth : Nat) (key : Key) (l : Level) (next : List Level) (g : Option Bytes) (c2 c3 : Bytes)
    (hg : guidOfKey o key = .ok g) (hp : pickItems o g = .ok (c2, c3)) (h1 : bitmapOffset c3 = 0) (h2 : previousBitmapOffset c3 = 0)
    (h3 : locationOffset c3 = 0) (h4 : applicationOffset c3 = 0) (h5 : diffAreaOffset c3 = 0x8000) :
    selectLevel threeImage o (fuel + 1) (depth + 1) key l next =
      some (.error .ShadowBlockException, { l with size := some (volumeSize c2), bitmap := some [], previousBitmap := some [] }, next) := by
  rw [selectLevel, hg]
  dsimp only
  rw [hp]
  dsimp only
  rw [show threeImage.store = (threeVolume, 0) from rfl, h1, h2, h3, h4, h5, bitmap_zero, locations_zero]
  dsimp only
  rw [show readApplication (threeVolume, 0) 0 = .ok [] from rfl, three_area]

theorem three_missing (fuel depth : Nat) (l : Level) (next : List Level) :
    selectLevel threeImage threeOpened fuel (depth + 1) (.position 4) l next = some (.error .ShadowCopyNotFoundException, l, next) := by
  rw [selectLevel, three_guid 4 none (by decide +kernel)]
  dsimp only
  rw [three_pick none (.error .ShadowCopyNotFoundException) (by decide +kernel)]

/-- The third one is good. -/
theorem three_third (fuel depth : Nat) (l : Level) (next : List Level) : selectLevel threeImage threeOpened fuel (depth + 2) (.position 3) l next =
    some (.ok (), levelOf ⟨0x4000, [], [], [], [], false⟩, []) := by
  rw [threeImage, selectLevel_good threeVolume threeOpened fuel (depth + 1) (.position 3) l next (some (List.replicate 16 1)) (slot2 0x4000 1 3) (slot3 0 1)
    (three_guid 3 _ (by decide +kernel)) (three_pick _ _ (by decide +kernel)) (by decide +kernel) (by decide +kernel) (by decide +kernel) (by decide +kernel)
    (by decide +kernel) (by decide +kernel), show stackPosition (slot2 0x4000 1 3) + 1 = 4 by decide +kernel, ← threeImage, three_missing]
  dsimp only
  rw [if_pos rfl, show volumeSize (slot2 0x4000 1 3) = 0x4000 by decide +kernel]

/-- The second one cannot be selected. -/
theorem three_second (fuel depth : Nat) (l : Level) (next : List Level) : selectLevel threeImage threeOpened (fuel + 1) (depth + 1) (.position 2) l next =
    some (.error .ShadowBlockException, { l with size := some 0x8000, bitmap := some [], previousBitmap := some [] }, next) := by
  rw [selectLevel_bad threeOpened fuel depth (.position 2) l next (some (List.replicate 16 2)) (slot2 0x8000 2 2) (slot3 0x8000 2)
    (three_guid 2 _ (by decide +kernel)) (three_pick _ _ (by decide +kernel)) (by decide +kernel) (by decide +kernel) (by decide +kernel) (by decide +kernel)
    (by decide +kernel), show volumeSize (slot2 0x8000 2 2) = 0x8000 by decide +kernel]

/-- The first one cannot be selected because of the second one. -/
theorem three_first (fuel depth : Nat) (l : Level) (next : List Level) : selectLevel threeImage threeOpened (fuel + 1) (depth + 2) (.position 1) l next =
    some (.error .ShadowBlockException, { l with size := some 0xC000, bitmap := some [], previousBitmap := some [], diffArea := some [] },
      [{ Level.fresh with size := some 0x8000, bitmap := some [], previousBitmap := some [] }]) := by
  rw [threeImage, selectLevel_good threeVolume threeOpened (fuel + 1) (depth + 1) (.position 1) l next (some (List.replicate 16 3)) (slot2 0xC000 3 1) (slot3 0 3)
    (three_guid 1 _ (by decide +kernel)) (three_pick _ _ (by decide +kernel)) (by decide +kernel) (by decide +kernel) (by decide +kernel) (by decide +kernel)
    (by decide +kernel) (by decide +kernel), show stackPosition (slot2 0xC000 3 1) + 1 = 2 by decide +kernel, ← threeImage, three_second]
  dsimp only
  rw [if_neg (by decide), show volumeSize (slot2 0xC000 3 1) = 0xC000 by decide +kernel]

theorem three_select_third (fuel : Nat) (p : Parser) : call threeImage threeOpened (fuel + 2) p (.select (.position 3)) =
    some (.nothing, parserOf ⟨0x4000, [], [], [], [], false⟩ [] 0) := by
  unfold call selectShadow
  dsimp only
  rw [if_neg (by decide), three_third]
  rfl

theorem three_select_second (fuel : Nat) (p : Parser) : call threeImage threeOpened (fuel + 2) p (.select (.position 2)) =
    some (.raised .ShadowBlockException, ⟨{ p.level with size := some 0x8000, bitmap := some [], previousBitmap := some [] }, p.next, p.offset⟩) := by
  unfold call selectShadow
  dsimp only
  rw [if_neg (by decide), three_second]

theorem three_select_first (fuel : Nat) (p : Parser) : call threeImage threeOpened (fuel + 2) p (.select (.position 1)) =
    some (.raised .ShadowBlockException, ⟨{ p.level with size := some 0xC000, bitmap := some [], previousBitmap := some [], diffArea := some [] },
      [{ Level.fresh with size := some 0x8000, bitmap := some [], previousBitmap := some [] }], p.offset⟩) := by
  unfold call selectShadow
  dsimp only
  rw [if_neg (by decide), three_first]

theorem three_select_missing (fuel : Nat) (p : Parser) : call threeImage threeOpened (fuel + 2) p (.select (.position 4)) =
    some (.raised .ShadowCopyNotFoundException, p) := by
  unfold call selectShadow
  dsimp only
  rw [if_neg (by decide), three_missing]

theorem unselected_seek (img : Image) (o : Opened) (fuel : Nat) (p : Parser) (a b : Int) (h : p.level.selected = false) :
    call img o fuel p (.seek a b) = some (.raised .ValueError, p) := by
  unfold call Parser.seek
  simp [h]

theorem parserOf_inj {s s' : Store} {newer newer' : List Store} {n n' : Nat} (h : parserOf s newer n = parserOf s' newer' n') :
    s = s' ∧ newer = newer' := by
  refine ⟨congrArg (fun p => p.level.store) h, ?_⟩
  have := congrArg (fun p => p.next.map Level.store) h
  dsimp only [parserOf] at this
  rw [List.map_map, List.map_map] at this
  have e : Level.store ∘ levelOf = id := funext levelOf_store
  rw [e, List.map_id, List.map_id] at this
  exact this

/-- The third shadow copy: the first block of the volume. -/
def threeStore : Store := ⟨0x4000, [], [], [], [], false⟩

theorem three_select : select threeImage 2 (.position 3) = some (.ok [threeStore]) := by
  have hc := three_select_third 0 .fresh
  unfold call at hc
  dsimp only at hc
  rcases selectShadow_spec threeImage threeOpened 2 (three_open 1) (.position 3) .fresh with ⟨-, h2⟩ | ⟨s, newer, h1, h2⟩ | ⟨e, p', -, h2⟩
  · rw [h2] at hc; cases hc
  · rw [h2] at hc
    dsimp only at hc
    have hc := (Prod.mk.inj (Option.some.inj hc)).2
    obtain ⟨rfl, rfl⟩ := parserOf_inj hc
    exact h1
  · rw [h2] at hc; cases hc

theorem three_sector (i : Nat) : sector [threeStore] 0 true false i = .volume (0 + i * 512) := by
  rw [C41_volume threeStore 0 i (by simp [threeStore]), if_neg (by simp [threeStore])]

theorem three_readable : Readable threeImage [threeStore] 0 512 := by
  refine ⟨fun p _ h => ?_, fun p _ h => ?_, fun s hs e he hf => ?_⟩
  · unfold byteAt
    rw [show p / 0x4000 * 0x4000 = 0 by omega, three_sector]
    unfold sourceByte
    dsimp only
    rw [show threeImage.volume = threeVolume from rfl, show threeImage.volumeOffset = 0 from rfl,
      List.getElem?_eq_getElem (by rw [threeVolume_length]; omega)]
    exact Option.isSome_some
  · rw [show p / 0x4000 * 0x4000 = 0 by omega, three_sector]
    show 0 + (0 + p % 0x4000 / 512 * 512) < 2 ^ 63
    omega
  · simp only [List.mem_singleton] at hs
    subst hs
    simp [threeStore] at he

/-- A case for C129_history: after failed selections and reads, the selection of the third shadow copy gives what it gives at once. -/
example : ∃ as p, as.length = 3 ∧ calls threeImage threeOpened 2 .fresh ([.select (.position 1), .seek 5 0, .select (.position 2)] ++
      .select (.position 3) :: [.seek 0 2, .tell]) = some (as ++ .nothing :: [.position 0x4000, .position 0x4000], p) := by
  refine ⟨[.raised .ShadowBlockException, .raised .ValueError, .raised .ShadowBlockException], parserOf ⟨0x4000, [], [], [], [], false⟩ [] 0x4000, rfl, ?_⟩
  rw [List.cons_append, calls, three_select_first 0]
  dsimp only
  rw [List.cons_append, calls, unselected_seek _ _ _ _ _ _ rfl]
  dsimp only
  rw [List.cons_append, calls, three_select_second 0]
  dsimp only
  rw [List.nil_append, calls, three_select_third 0]
  rfl

/-- A case for C129_unselected. -/
example : ∃ p, calls threeImage threeOpened 2 .fresh [.select (.position 2)] = some ([.raised .ShadowBlockException], p) ∧
    call threeImage threeOpened 2 p .tell = some (.raised .ValueError, p) := by
  refine ⟨_, by rw [calls, three_select_second 0]; rfl, rfl⟩

/-- A case for C129_selected. -/
example : openVolume threeImage 2 = some (.ok threeOpened) ∧ select threeImage 2 (.position 3) = some (.ok [threeStore]) := ⟨three_open 1, three_select⟩

/-- A case for C130_not_found_partial. -/
example (p : Parser) : calls threeImage threeOpened 2 p [.select (.position 4), .tell] =
    (calls threeImage threeOpened 2 p [.tell]).map fun r => (.raised .ShadowCopyNotFoundException :: r.1, r.2) := by
  rw [calls, three_select_missing 0]
  dsimp only
  cases calls threeImage threeOpened 2 p [.tell] <;> rfl

/-- C130 is false: a parser selects a shadow copy of one block, then fails to select one of two blocks (its metadata cannot be read), and then the
end of what it reads is that of the latter. -/
theorem C130_other_size : ∃ (img : Image) (o : Opened) (fuel : Nat) (p : Parser), openVolume img fuel = some (.ok o) ∧
    calls img o fuel .fresh [.select (.position 3), .seek 0 2, .select (.position 2), .seek 0 2] =
      some ([.nothing, .position 0x4000, .raised .ShadowBlockException, .position 0x8000], p) := by
  refine ⟨threeImage, threeOpened, 2, parserOf ⟨0x8000, [], [], [], [], false⟩ [] 0x8000, three_open 1, ?_⟩
  rw [calls, three_select_third 0]
  dsimp only
  rw [calls, show call threeImage threeOpened 2 (parserOf ⟨0x4000, [], [], [], [], false⟩ [] 0) (.seek 0 2) =
    some (.position 0x4000, parserOf ⟨0x4000, [], [], [], [], false⟩ [] 0x4000) from rfl]
  dsimp only
  rw [calls, three_select_second 0]
  rfl

/-- C130 is false: after a selection that fails in a newer shadow copy, reading what was selected before raises an `AttributeError`. -/
theorem C130_attribute_error : ∃ (img : Image) (o : Opened) (fuel : Nat) (p q : Parser) (d : Bytes), openVolume img fuel = some (.ok o) ∧
    calls img o fuel .fresh [.select (.position 3), .read (some 512) false] = some ([.nothing, .data d], p) ∧ d.length = 512 ∧
    calls img o fuel .fresh [.select (.position 3), .select (.position 1), .read (some 512) false] =
      some ([.nothing, .raised .ShadowBlockException, .raised .AttributeError], q) := by
  obtain ⟨d, h1, h2, -⟩ := C42_exact threeImage 2 (.position 3) _ three_select 0 512 (by decide) three_readable
  refine ⟨threeImage, threeOpened, 2, parserOf threeStore [] 512, ⟨⟨true, some 0xC000, some [], some [], some [], some [], some false⟩,
    [{ Level.fresh with size := some 0x8000, bitmap := some [], previousBitmap := some [] }], 0⟩, d, three_open 1, ?_, h2, ?_⟩
  · rw [calls, three_select_third 0]
    dsimp only
    rw [calls, call, ← threeStore, read_levels, Mount.readFill_false, show ShadowCopy.read threeImage [threeStore] 0 (some 512) = (.ok d, 0 + 512) from h1]
    rfl
  · rw [calls, three_select_third 0]
    dsimp only
    rw [calls, three_select_first 0]
    rfl

end Verif.Props.Reselect
