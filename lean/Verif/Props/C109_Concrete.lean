/-
C109: a volume with a shadow copy, in which there is a file that was deleted later.
-/
import Verif.Props.C109
import Verif.Props.C98_Concrete
import Verif.Proof.SampleVolume
namespace Verif.Props.AllMft
open Verif.MFT Verif.Scripts Verif.ShadowCopy Verif.Spec.Shadow Verif.Spec.Mount Verif.Spec.MftTable Verif.Spec.AllMft Verif.Props.Mount
open Verif.SampleShadow (header control control_length zeros_length table table_block_length block_head u64_head u32_head)

/-- The boot sector and a file table with the root directory; the record 4 is `segment`. -/
def tableArea (segment : Bytes) : Bytes :=
  [mkBoot 1, tightSegment 0 1 1 [mkExtent 0x80 0 11 6144 [0x11, 12, 1, 0]], zeros 1024, zeros 1024,
    tightSegment 3 3 1 [mkAttr 0x70 (zeros 8 ++ [3, 1, 0, 0])], segment,
    tightSegment 5 5 3 [mkAttr 0x30 (mkName 5 5 3 ".")], zeros 1024].flatten

/-- The start of the volume: the file table, where the record 4 is not used, and the start block of shadow copies. -/
def allStart : Bytes := tableArea (zeros 1024) ++ (SampleShadow.header 1 7680 7680 0 ++ (natLE 8 0x4000 ++ zeros 456))

/-- The block that was copied: the record 4 is the file `/f`. -/
def oldBlock : Bytes := tableArea (tightSegment 4 1 1 [mkAttr 0x30 (mkName 5 5 1 "f")]) ++ zeros 8704

/-- The control block, with a shadow copy of one block. -/
def allControl : Bytes := control 0x4000 ++ zeros 16000

/-- The volume; `old` is the block that was copied. -/
def allVolume (old : Bytes) : Bytes := allStart ++ (zeros 0x2000 ++ (allControl ++ ((table ++ zeros 16224) ++ old)))

/-- The store of the shadow copy. -/
def allStore : Store := ⟨0x4000, [], [], [⟨0, 0, 0xC000, 0, 0⟩], [], false⟩

theorem allStart_length : allStart.length = 8192 := by decide +kernel
theorem oldBlock_length : oldBlock.length = 0x4000 := by decide +kernel
theorem allControl_head : (control 0x4000).length = 384 := by decide +kernel
theorem allControl_length : allControl.length = 0x4000 := by unfold allControl; rw [List.length_append, allControl_head, zeros_length]

theorem all_read_start (old : Bytes) : seekRead (allVolume old) 0 8192 = .ok allStart := by
  rw [seekRead_ok (by decide) (by decide)]
  unfold allVolume
  rw [slice_append_left _ _ _ _ (by rw [allStart_length]; omega), slice_all (by rw [allStart_length]; omega)]

theorem all_read_control (old : Bytes) : seekRead (allVolume old) 0x4000 0x4000 = .ok allControl := by
  rw [seekRead_ok (by decide) (by decide)]
  unfold allVolume
  rw [slice_append_right _ _ _ _ (by rw [allStart_length]; omega), slice_append_right _ _ _ _ (by rw [zeros_length, allStart_length]; omega),
    allStart_length, zeros_length, slice_append_left _ _ _ _ (by rw [allControl_length]; omega)]
  exact congrArg Except.ok (slice_all (j := 0x4000) (Nat.le_of_eq allControl_length))

theorem all_read_table (old : Bytes) : seekRead (allVolume old) 0x8000 0x4000 = .ok (table ++ zeros 16224) := by
  rw [seekRead_ok (by decide) (by decide)]
  unfold allVolume
  rw [slice_append_right _ _ _ _ (by rw [allStart_length]; omega), slice_append_right _ _ _ _ (by rw [zeros_length, allStart_length]; omega),
    allStart_length, zeros_length, slice_append_right _ _ _ _ (by rw [allControl_length]; omega),
    allControl_length, slice_append_left _ _ _ _ (by rw [table_block_length]; omega)]
  exact congrArg Except.ok (slice_all (j := 0x4000) (Nat.le_of_eq table_block_length))

theorem all_old (old : Bytes) (i : Nat) (hi : i < 0x4000) : (allVolume old)[0xC000 + i]? = old[i]? := by
  unfold allVolume
  have h1 : (allStart ++ (zeros 0x2000 ++ (allControl ++ ((table ++ zeros 16224) ++ old)))) =
      (allStart ++ (zeros 0x2000 ++ (allControl ++ (table ++ zeros 16224)))) ++ old := by simp only [List.append_assoc]
  have h2 : (allStart ++ (zeros 0x2000 ++ (allControl ++ (table ++ zeros 16224)))).length = 0xC000 := by
    rw [List.length_append, List.length_append, List.length_append, allStart_length, zeros_length, allControl_length, table_block_length]
  rw [h1, List.getElem?_append_right (by omega), h2, Nat.add_sub_cancel_left]

/-- The items of the control block. -/
def allItem2 : Bytes := slice (control 0x4000) 0x80 0x100
def allItem3 : Bytes := slice (control 0x4000) 0x100 0x180

theorem all_items (t : Bytes) (ht : slice t 0 4 = [0, 0, 0, 0]) : items (control 0x4000 ++ t) = ⟨[.store allItem2, .location allItem3], none⟩ := by
  unfold items
  rw [itemsLoop, if_pos (by decide), slice_append_left _ _ _ _ (by rw [allControl_head]; omega), if_neg (by decide +kernel),
    u32_head _ _ _ (by rw [allControl_head]; omega), if_neg (by decide +kernel), if_neg (by decide +kernel), if_neg (by decide +kernel)]
  dsimp only
  rw [slice_append_left _ _ _ _ (by rw [allControl_head]; omega), if_neg (by decide +kernel), if_pos (by decide +kernel),
    if_neg (by decide +kernel)]
  rw [itemsLoop, if_pos (by decide), slice_append_left _ _ _ _ (by rw [allControl_head]; omega), if_neg (by decide +kernel),
    u32_head _ _ _ (by rw [allControl_head]; omega), if_neg (by decide +kernel), if_neg (by decide +kernel), if_neg (by decide +kernel)]
  dsimp only
  rw [slice_append_left _ _ _ _ (by rw [allControl_head]; omega), if_neg (by decide +kernel), if_neg (by decide +kernel)]
  have h : slice (control 0x4000 ++ t) (0x80 + 0x80 + 0x80) (0x80 + 0x80 + 0x80 + 4) = [0, 0, 0, 0] := by
    rw [slice_append_right _ _ _ _ (by rw [allControl_head]; omega), allControl_head]
    exact ht
  rw [itemsLoop, if_pos (by decide), h, if_neg (by decide)]
  unfold u32
  rw [h, if_pos (by decide)]
  rfl

theorem all_open (old : Bytes) : ShadowCopy.openVolume (local_ (allVolume old) 0) 2 = some (.ok ⟨[allControl], [allControl], false⟩) := by
  refine SampleShadow.open_single (allVolume old) allStart 2 _ (all_read_start old) (by decide +kernel) (by decide +kernel) (by decide +kernel) ?_
  refine SampleShadow.chain_single (allVolume old) .control (fun b => .ok b) 1 0x4000 _ _ (by decide) (all_read_control old) ?_ ?_ ?_ rfl
  · exact block_head .control (control 0x4000) (zeros 16000) allControl_length (by rw [allControl_head]; omega)
      (by decide +kernel) (by decide +kernel) (by decide +kernel)
  · exact (u64_head _ _ _ (by rw [allControl_head]; omega)).trans (by decide +kernel)
  · exact (u64_head _ _ _ (by rw [allControl_head]; omega)).trans (by decide +kernel)

theorem all_slots : badSlot allControl = none ∧ shadowSlots allControl = [allItem2] := by
  have e : items allControl = _ := all_items (zeros 16000) (by decide +kernel)
  rw [items_eq _ allControl_length] at e
  injection e with e1 e2
  refine ⟨by simpa using e2, ?_⟩
  have key : ∀ l : List Bytes, l.filter (fun r => decide (Spec.Mount.slotType r = 2)) =
      (l.filterMap itemOf).filterMap fun | .store r => some r | .location _ => none := by
    intro l
    induction l with
    | nil => rfl
    | cons r l ih =>
      rw [List.filter_cons, List.filterMap_cons]
      unfold itemOf at ih ⊢
      by_cases h2 : Spec.Mount.slotType r = 2
      · simp [h2, ih]
      · by_cases h3 : Spec.Mount.slotType r = 3
        · simp [h3, ih]
        · simp [h2, h3, ih]
  unfold shadowSlots
  rw [key]
  exact congrArg _ e1

theorem readStore_any (f : Bytes) (cbi2 cbi3 : Bytes) (fuel o n : Nat) (e : Entry) (hv : volumeSize cbi2 = n) (hb : bitmapOffset cbi3 = 0)
    (hp : previousBitmapOffset cbi3 = 0) (hl : locationOffset cbi3 = 0) (ha : applicationOffset cbi3 = 0) (hd : diffAreaOffset cbi3 = o)
    (hs : storeFlags cbi2 = 0) (hc : chain (f, 0) .diffArea diffAreaEntries fuel o = some (.ok [[e]])) (he : e.flags = 0) (hle : loadEntries [e] = [e]) :
    readStore ⟨f, 0, none, none⟩ cbi2 cbi3 fuel = some (.ok ⟨n, [], [], [e], [], false⟩) := by
  have b : readBitmap (f, 0) n 0 fuel = some (.ok []) := by
    unfold readBitmap
    rw [SampleShadow.chain_zero]
    dsimp only
    unfold slice
    simp
  have l : readLocations (f, 0) 0 fuel = some (.ok []) := by
    unfold readLocations
    rw [SampleShadow.chain_zero]
    rfl
  have d : readDiffArea (f, 0) o fuel = some (.ok [e]) := by
    unfold readDiffArea
    rw [hc]
    exact congrArg (some <| Except.ok ·) hle
  unfold readStore
  rw [show Image.store ⟨f, 0, none, none⟩ = (f, 0) from rfl, hv, hb, hp, hl, ha, hd, hs, b]
  dsimp only
  rw [l]
  dsimp only
  rw [show readApplication (f, 0) 0 = .ok [] from rfl]
  dsimp only
  rw [d]
  dsimp only
  unfold nullTargetsOf
  rw [List.filter_cons_of_neg (by rw [he]; simp)]
  rfl

theorem select_by_guid (f cb i2 i3 : Bytes) (s : Store) (fuel : Nat) (ho : ShadowCopy.openVolume ⟨f, 0, none, none⟩ (fuel + 2) = some (.ok ⟨[cb], [cb], false⟩))
    (hi : items cb = ⟨[.store i2, .location i3], none⟩) (hp : stackPosition i2 = 1) (hg : storeGuid i2 = storeGuid i3)
    (hs : readStore ⟨f, 0, none, none⟩ i2 i3 (fuel + 2) = some (.ok s)) : select ⟨f, 0, none, none⟩ (fuel + 2) (.guid (storeGuid i2)) = some (.ok [s]) := by
  have g2 : guidOfKey ⟨[cb], [cb], false⟩ (.position 2) = .ok none := by
    unfold guidOfKey guidOfPosition guidInBlock
    dsimp only
    rw [hi]
    simp [hp, guidOfPosition]
  have a : allItems [cb] = ⟨[.store i2, .location i3], none⟩ := by
    unfold allItems allItems
    rw [hi]
    rfl
  have p1 : pickItems ⟨[cb], [cb], false⟩ (some (storeGuid i2)) = .ok (i2, i3) := by
    unfold pickItems matching2 matching3
    dsimp only
    rw [a]
    simp [hg]
  have p2 : pickItems ⟨[cb], [cb], false⟩ none = .error .ShadowCopyNotFoundException := by
    unfold pickItems matching2 matching3
    dsimp only
    rw [a]
    simp
  unfold select
  rw [ho]
  dsimp only
  rw [if_neg (by simp), selectStores, show guidOfKey ⟨[cb], [cb], false⟩ (.guid (storeGuid i2)) = .ok (some (storeGuid i2)) from rfl]
  dsimp only
  rw [p1]
  dsimp only
  rw [hs]
  dsimp only
  rw [hp, selectStores, g2]
  dsimp only
  rw [p2]
  rfl

theorem all_select (old : Bytes) : select (local_ (allVolume old) 0) 2 (.guid (guidOf allItem2)) = some (.ok [allStore]) := by
  refine select_by_guid (allVolume old) allControl allItem2 allItem3 allStore 0 (all_open old) (all_items _ (by decide +kernel)) (by decide +kernel) (by decide +kernel) ?_
  refine readStore_any (allVolume old) allItem2 allItem3 2 0x8000 0x4000 ⟨0, 0, 0xC000, 0, 0⟩ (by decide +kernel) (by decide +kernel) (by decide +kernel)
      (by decide +kernel) (by decide +kernel) (by decide +kernel) (by decide +kernel) ?_ rfl (by decide +kernel)
  refine SampleShadow.chain_single (allVolume old) .diffArea diffAreaEntries 1 0x8000 _ _ (by decide) (all_read_table old) ?_ ?_ ?_
      (SampleShadow.entries_table _ table_block_length (by decide +kernel))
  · exact block_head .diffArea table (zeros 16224) table_block_length (by rw [SampleShadow.table_length]; omega)
      (by decide +kernel) (by decide +kernel) (by decide +kernel)
  · exact (u64_head _ _ _ (by rw [SampleShadow.table_length]; omega)).trans (by decide +kernel)
  · exact (u64_head _ _ _ (by rw [SampleShadow.table_length]; omega)).trans (by decide +kernel)

theorem all_sector (i : Nat) : sector [allStore] 0 true false i = .store (0xC000 + i * 512) := by
  apply C41_copy allStore [] 0 i ⟨0, 0, 0xC000, 0, 0⟩ (by decide +kernel)
  have : ¬ Overlays i ⟨0, 0, 0xC000, 0, 0⟩ := fun h => absurd h.1 (by decide +kernel)
  unfold lastEntry allStore
  rw [List.filter_cons_of_neg (by simpa using this)]
  rfl

theorem all_byte (old : Bytes) (p : Nat) (hp : p < 0x4000) : byteAt (local_ (allVolume old) 0) [allStore] p = old[p]? := by
  unfold byteAt
  rw [show p / 0x4000 * 0x4000 = 0 by omega, all_sector]
  unfold sourceByte
  dsimp only
  rw [show (local_ (allVolume old) 0).store = (allVolume old, 0) from rfl]
  dsimp only
  rw [← all_old old p hp]
  congr 1
  omega

theorem all_readable (old : Bytes) (ho : old.length = 0x4000) : Readable (local_ (allVolume old) 0) [allStore] 0 0x4000 := by
  refine ⟨fun p _ h => ?_, fun p _ h => ?_, fun s hs e he hf => ?_⟩
  · have hp : p < 0x4000 := by omega
    rw [all_byte old p hp, List.getElem?_eq_getElem (by rw [ho]; exact hp)]
    rfl
  · have hp : p / 0x4000 = 0 := by omega
    rw [hp, all_sector]
    show 0 + (0xC000 + p % 0x4000 / 512 * 512) < 2 ^ 63
    omega
  · simp only [List.mem_singleton] at hs
    subst hs
    simp only [allStore, List.mem_singleton] at he
    subst he
    exact absurd hf (by decide +kernel)

/-- The shadow copy is the block that was copied. -/
theorem all_view (old : Bytes) (ho : old.length = 0x4000) : Le (seekRead old) (shadowDevice (local_ (allVolume old) 0) [allStore]) := by
  obtain ⟨view, -, h2, h3, h4⟩ := C109_parts (local_ (allVolume old) 0) 2 _ _ (all_select old) ⟨1, rfl⟩ (all_readable old ho)
  have h2 : view.length = 0x4000 := h2
  have hv : view = old := by
    refine List.ext_getElem? fun i => ?_
    by_cases hi : i < 0x4000
    · rw [h3 i (by omega), all_byte old i hi]
    · rw [List.getElem?_eq_none (by omega), List.getElem?_eq_none (by rw [ho]; omega)]
  subst hv
  intro p n x hx _
  obtain ⟨-, hp, hn⟩ := of_seekRead hx
  rw [h4 p n hp hn]
  exact hx

/-- The hypotheses of `C109_parts` are met. -/
example : ∃ view, (ShadowCopy.read (local_ (allVolume oldBlock) 0) [allStore] 0 none).1 = .ok view ∧ view.length = 0x4000 := by
  obtain ⟨view, h1, h2, -⟩ := C109_parts (local_ (allVolume oldBlock) 0) 2 _ _ (all_select oldBlock) ⟨1, rfl⟩ (all_readable oldBlock oldBlock_length)
  exact ⟨view, h1, h2⟩

/-! ### The list -/

/-- A check for `Listed`. -/
def listedCheck (volume : Device) : Bool :=
  match openDevice volume 0 with
  | .error _ => false
  | .ok f =>
    match f.contents with
    | .error _ => false
    | .ok mft =>
      match Parser.init mft true with
      | .error _ => false
      | .ok p => p.size == 1024 && mft.length == 6144 && usableCheck mft 1024 && p.fileRecords.items.all tabularCheck

theorem listed_of_check {volume : Device} (h : listedCheck volume = true) : Listed volume 0 := by
  unfold listedCheck at h
  cases hf : openDevice volume 0 with
  | error e => rw [hf] at h; cases h
  | ok f =>
    rw [hf] at h
    dsimp only at h
    cases hm : f.contents with
    | error e => rw [hm] at h; cases h
    | ok mft =>
      rw [hm] at h
      dsimp only at h
      cases hp : Parser.init mft true with
      | error e => rw [hp] at h; cases h
      | ok p =>
        rw [hp] at h
        simp only [Bool.and_eq_true, beq_iff_eq, List.all_eq_true] at h
        obtain ⟨⟨⟨h1, h2⟩, h3⟩, h4⟩ := h
        refine ⟨f, mft, p, hf, hm, hp, by rw [h1, h2]; exact ⟨6, rfl⟩, ?_, fun r hr => tabular_of_check (h4 r hr)⟩
        rw [h1]
        exact usable_of_check (by decide) ⟨6, by rw [h2]⟩ h3

/-- The start of the block that was copied. -/
def oldTable : Bytes := tableArea (tightSegment 4 1 1 [mkAttr 0x30 (mkName 5 5 1 "f")])

theorem oldTable_length : oldTable.length = 15 * 512 := by decide +kernel

/-- A file object that fails when it cannot give all that it is asked for. -/
def strict (b : Bytes) : Device := fun p n => if p + n ≤ b.length then seekRead b p n else .error .ValueError

theorem strict_le (a b : Bytes) : Le (strict a) (seekRead (a ++ b)) := by
  intro p n x hx _
  unfold strict at hx
  split at hx
  · rename_i h
    obtain ⟨h1, h2, h3⟩ := of_seekRead hx
    rw [seekRead_ok h2 h3, slice_append_left _ _ _ _ h, h1]
  · cases hx

theorem table_listed : Listed (strict (tableArea (zeros 1024))) 0 := listed_of_check (by decide +kernel)
theorem cut_old_listed : Listed (strict oldTable) 0 := listed_of_check (by decide +kernel)

theorem main_listed (old : Bytes) : Listed (seekRead (allVolume old)) 0 := by
  unfold allVolume allStart
  rw [List.append_assoc]
  exact table_listed.le (strict_le _ _)

theorem all_main_listed : Listed (seekRead (allVolume oldBlock)) 0 := main_listed _
theorem all_old_listed : Listed (seekRead oldBlock) 0 := cut_old_listed.le (strict_le oldTable _)

theorem all_blocks : ∀ b ∈ [allControl], badSlot b = none := fun b hb => by rw [List.mem_singleton.mp hb]; exact all_slots.1

theorem all_flat : [allControl].flatMap shadowSlots = [allItem2] := by rw [List.flatMap_cons, List.flatMap_nil, all_slots.2]; rfl

/-- The hypotheses of `C109_complete`, and with it those of `C109_finished`, are met by this volume with a shadow copy. -/
theorem all_finished : ∃ rows, processAllMft (allVolume oldBlock) 0 2 = some ⟨rows, none⟩ :=
  C109_complete (allVolume oldBlock) 0 2 all_main_listed _ (all_open _) all_blocks (fun raw hr => by
    rw [all_flat, List.mem_singleton] at hr
    subst hr
    exact ⟨_, all_select _, all_old_listed.le (all_view _ oldBlock_length)⟩)

/-- What C109 says about this list: the rows of the shadow copy are those for the file table in the block that was copied, and their tag is
`shadow copy 1`. -/
example : ∃ rows main old, processAllMft (allVolume oldBlock) 0 2 = some ⟨rows, none⟩ ∧ TableOf (fileOf (allVolume oldBlock)) 0 (Str.ofString "main volume") main ∧
    rows = Spec.MftTable.header :: (main ++ old) ∧ ShadowOf (allVolume oldBlock) 0 2 [allItem2] allItem2 [allStore] ∧
    TableOf (shadowOf (local_ (allVolume oldBlock) 0) [allStore]) 0 (Str.ofString "shadow copy 1") old := by
  obtain ⟨rows, h⟩ := all_finished
  obtain ⟨main, h1, h2 | ⟨o, tables, h2, h3, h4, h5, h6⟩⟩ := C109_finished (allVolume oldBlock) 0 2 (by decide) rows h
  · have := (disabled_iff (fuel := 2) (by decide)).2 h2.1
    rw [all_open] at this
    injection this with this
    cases this
  · rw [all_open] at h2
    injection h2 with h2
    injection h2 with h2
    subst h2
    rw [all_flat] at h5 h6
    match tables, h5 with
    | [old], _ =>
      obtain ⟨stores, v1, v2⟩ := h6.2 0 allItem2 old rfl rfl
      have hs := v1.2.1
      rw [all_select] at hs
      injection hs with hs
      injection hs with hs
      subst hs
      refine ⟨rows, main, old, h, h1, by rw [h3]; simp, v1, ?_⟩
      rwa [show tagOf allItem2 = Str.ofString "shadow copy 1" by decide +kernel] at v2

/-! ### Other cases -/

/-- A case for `C109_disabled`: the file table alone. -/
example : ∃ g, processAllMft (tableArea (zeros 1024)) 0 2 = some g ∧ g = deviceTable (seekRead (tableArea (zeros 1024))) 0 (Str.ofString "main volume") true :=
  C109_disabled _ 0 2 (by decide) (.inl (by decide +kernel))

theorem all_stopped (old : Bytes) (hm : Listed (seekRead (allVolume old)) 0) (e : Exc)
    (hz : ∀ tag, deviceTable (shadowDevice (local_ (allVolume old) 0) [allStore]) 0 tag false = ⟨[], some e⟩) : ∃ rows, processAllMft (allVolume old) 0 2 = some ⟨rows, some e⟩ := by
  obtain ⟨items, hi⟩ := deviceTable_listed hm (Str.ofString "main volume") true
  refine ⟨items, ?_⟩
  unfold processAllMft
  rw [hi]
  dsimp only
  rw [show ShadowCopy.openVolume ⟨allVolume old, 0, none, none⟩ 2 = _ from all_open _]
  dsimp only
  rw [show shadows [allControl] = ⟨([allControl].flatMap shadowSlots).map describe, none⟩ from
    C107_shadows _ (opened_length (all_open old) rfl) all_blocks, all_flat, List.map_cons, List.map_nil]
  dsimp only
  rw [shadowTables, show select ⟨allVolume old, 0, none, none⟩ 2 (.guid (describe allItem2).storeGuid) = _ from all_select _]
  dsimp only
  rw [show deviceTable (shadowDevice ⟨allVolume old, 0, none, none⟩ [allStore]) 0 _ false = _ from hz _]
  dsimp only
  rw [Option.map_some, List.append_nil]

/-- A sector of zeros. -/
def noBoot : Bytes := zeros 512

theorem noBoot_error : BootSector.init noBoot = .error .BootSectorException := by
  have h : (match BootSector.init noBoot with
    | .error e => decide (e = .BootSectorException)
    | .ok _ => false) = true := by decide +kernel
  cases hx : BootSector.init noBoot with
  | error e => rw [hx] at h; rw [of_decide_eq_true h]
  | ok f => rw [hx] at h; cases h

theorem open_error {dev : Device} {buf : Bytes} {e : Exc} (h : dev 0 512 = .ok buf) (hb : BootSector.init buf = .error e) : openDevice dev 0 = .error e := by
  unfold openDevice
  rw [h]
  show (BootSector.init buf >>= _) = _
  rw [hb]
  rfl

/-- A block of zeros. -/
def emptyBlock : Bytes := zeros 0x4000

/-- A case for `C109_stopped`: the block that was copied has nothing but zeros, and the file table of the shadow copy cannot be found.  The
rows for the volume itself are there. -/
example : ∃ rows e main tables more raw, processAllMft (allVolume emptyBlock) 0 2 = some ⟨rows, some e⟩ ∧
    TableOf (fileOf (allVolume emptyBlock)) 0 (Str.ofString "main volume") main ∧
    rows = Spec.MftTable.header :: (main ++ (List.flatten tables ++ more)) ∧ [allItem2][tables.length]? = some raw := by
  have hm : Listed (seekRead (allVolume emptyBlock)) 0 := main_listed _
  have hboot : shadowDevice (local_ (allVolume emptyBlock) 0) [allStore] 0 512 = .ok noBoot :=
    all_view emptyBlock (zeros_length _) 0 512 noBoot (by
      rw [seekRead_ok (by decide) (by decide)]
      exact congrArg Except.ok (by decide +kernel)) (.inl (by decide +kernel))
  have hz := open_error hboot noBoot_error
  obtain ⟨rows, h⟩ := all_stopped emptyBlock hm .BootSectorException (fun tag => by unfold deviceTable; rw [hz]; rfl)
  rcases C109_stopped _ 0 2 rows .BootSectorException h with ⟨hn, -⟩ | ⟨main, rest, h1, h2, h3⟩
  · exact absurd hm hn
  rcases h3 with ⟨-, ⟨e, he, -⟩ | ⟨o, ho, hb⟩⟩ | ⟨o, tables, more, raw, ho, hb, h3, h4, h5, -⟩
  · rw [all_open] at he; cases he
  · rw [all_open] at ho; cases ho; exact absurd all_blocks hb
  · rw [all_open] at ho
    cases ho
    rw [all_flat] at h5
    exact ⟨rows, _, main, tables, more, raw, h, h1, by rw [h2, h3], h5⟩

/-! ### A shadow copy that is not there completely -/

theorem cut_readable (old : Bytes) (k : Nat) (hk : k ≤ 32) (ho : old.length = k * 512) (a : Nat) : Readable (local_ (allVolume old) 0) [allStore] a (k * 512) := by
  refine ⟨fun p _ h => ?_, fun p _ h => ?_, fun s hs e he hf => ?_⟩
  · have hp : p < 0x4000 := by omega
    rw [all_byte old p hp, List.getElem?_eq_getElem (by rw [ho]; omega)]
    rfl
  · have hp : p / 0x4000 = 0 := by omega
    rw [hp, all_sector]
    show 0 + (0xC000 + p % 0x4000 / 512 * 512) < 2 ^ 63
    omega
  · simp only [List.mem_singleton] at hs
    subst hs
    simp only [allStore, List.mem_singleton] at he
    subst he
    exact absurd hf (by decide +kernel)

theorem cut_view (old : Bytes) (k : Nat) (hk : k ≤ 32) (ho : old.length = k * 512) :
    Le (strict old) (shadowDevice (local_ (allVolume old) 0) [allStore]) := by
  intro p n x hx hne
  unfold strict at hx
  split at hx
  · rename_i hin
    obtain ⟨h1, -, -⟩ := of_seekRead hx
    by_cases hn : n = 0
    · subst hn
      have hx0 : x = [] := by rw [h1]; apply List.eq_nil_of_length_eq_zero; rw [slice_length]; omega
      rw [hx0]
      show (ShadowCopy.read _ _ _ _).1 = _
      unfold ShadowCopy.read
      dsimp only
      rw [if_pos (.inl (by unfold readSize; simp))]
    have hs : shadowSize (local_ (allVolume old) 0) [allStore] = 0x4000 := rfl
    obtain ⟨d, d1, d2⟩ := C42_complete _ 2 _ _ (all_select old) p n (k * 512) (by rw [hs]; omega) (.inl (by omega)) (cut_readable old k hk ho p)
    rw [hs, show roundUp 0x4000 = 0x4000 from rfl] at d2
    have hsound := (C42_sound _ 2 _ _ (all_select old) p (some n) d (by rw [d1])).2
    show (ShadowCopy.read _ _ _ _).1 = _
    rw [d1, h1]
    refine congrArg Except.ok (List.ext_getElem? fun i => ?_)
    rw [slice_getElem?]
    by_cases hi : i < d.length
    · rw [hsound i hi, if_pos (by omega), all_byte old _ (by omega)]
    · rw [List.getElem?_eq_none (by omega), if_neg (by omega)]
  · cases hx

theorem cut_main_listed : Listed (seekRead (allVolume oldTable)) 0 := main_listed _

/-- The image ends inside the shadow copy, after its file table: the list is finished, with the rows of the shadow copy. -/
theorem cut_finished : ∃ rows, processAllMft (allVolume oldTable) 0 2 = some ⟨rows, none⟩ :=
  C109_complete (allVolume oldTable) 0 2 cut_main_listed _ (all_open _) all_blocks (fun raw hr => by
    rw [all_flat, List.mem_singleton] at hr
    subst hr
    exact ⟨_, all_select _, cut_old_listed.le (cut_view _ 15 (by decide) oldTable_length)⟩)

/-- A case for `C42_stop`: a read of the block gives the part of it that the image has. -/
example : ∃ d, (ShadowCopy.read (local_ (allVolume oldTable) 0) [allStore] 0 (some 512)).1 = .ok d ∧ d ≠ [] ∧
    byteAt (local_ (allVolume oldTable) 0) [allStore] 0x3000 = none := by
  have h := cut_view oldTable 15 (by decide) oldTable_length 0 512 (slice oldTable 0 512) (by
    unfold strict
    rw [if_pos (by rw [oldTable_length]; decide), seekRead_ok (by decide) (by decide)]) (.inl (by decide +kernel))
  refine ⟨_, h, by decide +kernel, ?_⟩
  rw [all_byte _ _ (by decide)]
  exact List.getElem?_eq_none (by rw [oldTable_length]; decide)

end Verif.Props.AllMft
