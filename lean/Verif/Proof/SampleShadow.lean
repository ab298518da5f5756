/-
A small volume with a shadow copy for the examples.
-/
import Verif.Model.ShadowCopy.Parser
namespace Verif.SampleShadow
open Verif.ShadowCopy

/-- The header of a block of the metadata. -/
def header (type offset1 offset2 offset3 : Nat) : Bytes :=
  [diffAreaGuid, natLE 4 1, natLE 4 type, natLE 8 offset1, natLE 8 offset2, natLE 8 offset3].flatten

/-- The start of the volume: an NTFS signature, and the start block, which leads to a control block at 0x4000. -/
def start : Bytes := [zeros 3, [0x4E, 0x54, 0x46, 0x53], zeros 7673, header 1 7680 7680 0, natLE 8 0x4000, zeros 456].flatten

/-- A control block with the two items of a shadow copy of `size` bytes, with the GUID zero and the stack position 1.
The table of its differential area is at 0x8000. -/
def control (size : Nat) : Bytes := [header 2 0 0x4000 0, zeros 80,
  natLE 8 2, natLE 8 size, zeros 16, natLE 8 1, zeros 88,
  natLE 8 3, natLE 8 0x8000, zeros 112].flatten

/-- The table: the block 0 was copied to 0xC000. -/
def table : Bytes := [header 3 0 0x8000 0, zeros 80, natLE 8 0, natLE 8 0, natLE 8 0xC000, natLE 8 0].flatten

/-- The volume: each block of the metadata in a block of 16 KiB, then the copy. -/
def file : Bytes := start ++ (zeros 0x2000 ++ ((control 256 ++ zeros 16000) ++ ((table ++ zeros 16224) ++ List.replicate 0x4000 7)))

/-- The parser for the volume. -/
def image : Image := ⟨file, 0, none, none⟩

/-- The shadow copy of the volume. -/
def store : Store := ⟨256, [], [], [⟨0, 0, 0xC000, 0, 0⟩], [], false⟩

theorem start_length : start.length = 8192 := by decide +kernel
theorem control_length : (control 256).length = 384 := by decide +kernel
theorem table_length : table.length = 160 := by decide +kernel
theorem zeros_length (n : Nat) : (zeros n).length = n := List.length_replicate

theorem control_block_length : (control 256 ++ zeros 16000).length = 0x4000 := by rw [List.length_append, control_length, zeros_length]
theorem table_block_length : (table ++ zeros 16224).length = 0x4000 := by rw [List.length_append, table_length, zeros_length]

theorem chain_zero {α} (st : Bytes × Nat) (k : Kind) (g : Bytes → Except Exc α) (fuel : Nat) : chain st k g fuel 0 = some (.ok []) := by
  rw [chain.eq_def]; rfl

theorem block_head (k : Kind) (h t : Bytes) (h1 : (h ++ t).length = 0x4000) (h2 : 48 ≤ h.length) (h3 : slice h 0 16 = diffAreaGuid)
    (h4 : u32 h 20 = k.type) (h5 : u64 h 24 = 0) : block k (h ++ t) = .ok () := by
  unfold block blockType offset1 u32 u64
  unfold u32 at h4
  unfold u64 at h5
  rw [if_neg (by omega), slice_append_left _ _ _ _ (by omega), if_neg (by rw [h3]; simp), slice_append_left _ _ _ _ (by omega),
    if_neg (by rw [h4]; simp), slice_append_left _ _ _ _ (by omega), h5, if_neg (by simp)]

theorem u64_head (h t : Bytes) (i : Nat) (hi : i + 8 ≤ h.length) : u64 (h ++ t) i = u64 h i := by
  unfold u64; rw [slice_append_left _ _ _ _ hi]
theorem u32_head (h t : Bytes) (i : Nat) (hi : i + 4 ≤ h.length) : u32 (h ++ t) i = u32 h i := by
  unfold u32; rw [slice_append_left _ _ _ _ hi]

theorem read_start : seekRead file 0 8192 = .ok start := by
  rw [seekRead_ok (by decide) (by decide)]
  unfold file
  rw [slice_append_left _ _ _ _ (by rw [start_length]; omega), slice_all (by rw [start_length]; omega)]

theorem read_control : seekRead file 0x4000 0x4000 = .ok (control 256 ++ zeros 16000) := by
  rw [seekRead_ok (by decide) (by decide)]
  unfold file
  rw [slice_append_right _ _ _ _ (by rw [start_length]; omega), slice_append_right _ _ _ _ (by rw [zeros_length, start_length]; omega),
    start_length, zeros_length, slice_append_left _ _ _ _ (by rw [control_block_length]; omega)]
  exact congrArg Except.ok (slice_all (j := 0x4000) (Nat.le_of_eq control_block_length))

theorem read_table : seekRead file 0x8000 0x4000 = .ok (table ++ zeros 16224) := by
  rw [seekRead_ok (by decide) (by decide)]
  unfold file
  rw [slice_append_right _ _ _ _ (by rw [start_length]; omega), slice_append_right _ _ _ _ (by rw [zeros_length, start_length]; omega),
    start_length, zeros_length, slice_append_right _ _ _ _ (by rw [control_block_length]; omega),
    control_block_length, slice_append_left _ _ _ _ (by rw [table_block_length]; omega)]
  exact congrArg Except.ok (slice_all (j := 0x4000) (Nat.le_of_eq table_block_length))

/-- The items of the control block. -/
def item2 : Bytes := slice (control 256) 0x80 0x100
def item3 : Bytes := slice (control 256) 0x100 0x180

theorem items_control (t : Bytes) (ht : slice t 0 4 = [0, 0, 0, 0]) : items (control 256 ++ t) = ⟨[.store item2, .location item3], none⟩ := by
  unfold items
  rw [itemsLoop, if_pos (by decide), slice_append_left _ _ _ _ (by rw [control_length]; omega), if_neg (by decide +kernel),
    u32_head _ _ _ (by rw [control_length]; omega), if_neg (by decide +kernel), if_neg (by decide +kernel), if_neg (by decide +kernel)]
  dsimp only
  rw [slice_append_left _ _ _ _ (by rw [control_length]; omega), if_neg (by decide +kernel), if_pos (by decide +kernel),
    if_neg (by decide +kernel)]
  rw [itemsLoop, if_pos (by decide), slice_append_left _ _ _ _ (by rw [control_length]; omega), if_neg (by decide +kernel),
    u32_head _ _ _ (by rw [control_length]; omega), if_neg (by decide +kernel), if_neg (by decide +kernel), if_neg (by decide +kernel)]
  dsimp only
  rw [slice_append_left _ _ _ _ (by rw [control_length]; omega), if_neg (by decide +kernel), if_neg (by decide +kernel)]
  have h : slice (control 256 ++ t) (0x80 + 0x80 + 0x80) (0x80 + 0x80 + 0x80 + 4) = [0, 0, 0, 0] := by
    rw [slice_append_right _ _ _ _ (by rw [control_length]; omega), control_length]
    exact ht
  rw [itemsLoop, if_pos (by decide), h, if_neg (by decide)]
  unfold u32
  rw [h, if_pos (by decide)]
  rfl

theorem entries_table (t : Bytes) (hl : (table ++ t).length = 0x4000) (ht : slice t 0 32 = zeros 32) : diffAreaEntries (table ++ t) = .ok [⟨0, 0, 0xC000, 0, 0⟩] := by
  have h1 : entryOf (slice (table ++ t) 0x80 (0x80 + 32)) = ⟨0, 0, 0xC000, 0, 0⟩ := by
    rw [slice_append_left _ _ _ _ (by rw [table_length]; omega)]
    decide +kernel
  have h2 : entryOf (slice (table ++ t) (0x80 + 32) (0x80 + 32 + 32)) = ⟨0, 0, 0, 0, 0⟩ := by
    rw [slice_append_right _ _ _ _ (by rw [table_length]; omega), table_length]
    rw [show 0x80 + 32 - 160 = 0 by decide, show 0x80 + 32 + 32 - 160 = 32 by decide, ht]
    decide +kernel
  unfold diffAreaEntries
  rw [diffAreaLoop, if_pos (by omega), h1]
  dsimp only
  rw [if_neg (by decide), if_neg (by decide), if_neg (by decide), diffAreaLoop, if_pos (by omega), h2]
  dsimp only
  rw [if_neg (by decide), if_neg (by decide), if_pos (by decide)]
  rfl

/-! The following lemmas are about any volume, so that the kernel does not compute with the bytes of this one. -/

theorem chain_single {α} (f : Bytes) (k : Kind) (g : Bytes → Except Exc α) (fuel off : Nat) (b : Bytes) (a : α) (h0 : off ≠ 0)
    (hr : seekRead f off 0x4000 = .ok b) (hb : block k b = .ok ()) (h2 : offset2 b = off) (h3 : offset3 b = 0) (hg : g b = .ok a) :
    chain (f, 0) k g (fuel + 1) off = some (.ok [a]) := by
  rw [chain, if_neg h0, Nat.zero_add, hr]
  dsimp only
  rw [hb]
  dsimp only
  rw [if_neg (by simpa using h2), hg]
  dsimp only
  rw [h3, chain_zero]

theorem open_single (f st : Bytes) (fuel : Nat) (cbs : List Bytes) (hr : seekRead f 0 8192 = .ok st) (hs : startBlock st = .ok ())
    (hl : isStorageLocal st = true) (hf : firstControlBlockOffset st = .ok 0x4000)
    (hc : chain (f, 0) .control (fun b => .ok b) fuel 0x4000 = some (.ok cbs)) :
    openVolume ⟨f, 0, none, none⟩ fuel = some (.ok ⟨cbs, cbs, false⟩) := by
  unfold openVolume disabled controlBlocks
  dsimp only
  rw [hr]
  dsimp only
  rw [hs]
  dsimp only
  rw [hf]
  dsimp only
  rw [hc]
  dsimp only
  rw [hl]
  rfl

theorem readStore_single (f : Bytes) (cbi2 cbi3 : Bytes) (fuel o : Nat) (e : Entry) (hv : volumeSize cbi2 = 256) (hb : bitmapOffset cbi3 = 0)
    (hp : previousBitmapOffset cbi3 = 0) (hl : locationOffset cbi3 = 0) (ha : applicationOffset cbi3 = 0) (hd : diffAreaOffset cbi3 = o)
    (hs : storeFlags cbi2 = 0) (hc : chain (f, 0) .diffArea diffAreaEntries fuel o = some (.ok [[e]])) (he : e.flags = 0) (hle : loadEntries [e] = [e]) :
    readStore ⟨f, 0, none, none⟩ cbi2 cbi3 fuel = some (.ok ⟨256, [], [], [e], [], false⟩) := by
  have b : readBitmap (f, 0) 256 0 fuel = some (.ok []) := by
    unfold readBitmap
    rw [chain_zero]
    rfl
  have l : readLocations (f, 0) 0 fuel = some (.ok []) := by
    unfold readLocations
    rw [chain_zero]
    rfl
  have d : readDiffArea (f, 0) o fuel = some (.ok [e]) := by
    unfold readDiffArea
    rw [hc]
    exact congrArg (some <| Except.ok ·) hle
  unfold readStore
  rw [show Image.store ⟨f, 0, none, none⟩ = (f, 0) from rfl, hv, hb, hp, hl, ha, hd, hs, b]
  dsimp only
  rw [l]
  dsimp only
  rw [show readApplication (f, 0) 0 = .ok [] from rfl]
  dsimp only
  rw [d]
  dsimp only
  unfold nullTargetsOf
  rw [List.filter_cons_of_neg (by rw [he]; simp)]
  rfl

theorem select_single (f cb i2 i3 : Bytes) (s : Store) (fuel : Nat) (ho : openVolume ⟨f, 0, none, none⟩ (fuel + 2) = some (.ok ⟨[cb], [cb], false⟩))
    (hi : items cb = ⟨[.store i2, .location i3], none⟩) (hp : stackPosition i2 = 1) (hg : storeGuid i2 = storeGuid i3)
    (hs : readStore ⟨f, 0, none, none⟩ i2 i3 (fuel + 2) = some (.ok s)) : select ⟨f, 0, none, none⟩ (fuel + 2) (.position 1) = some (.ok [s]) := by
  have g1 : guidOfKey ⟨[cb], [cb], false⟩ (.position 1) = .ok (some (storeGuid i2)) := by
    unfold guidOfKey guidOfPosition guidInBlock
    dsimp only
    rw [hi]
    simp [hp, guidOfPosition]
  have g2 : guidOfKey ⟨[cb], [cb], false⟩ (.position 2) = .ok none := by
    unfold guidOfKey guidOfPosition guidInBlock
    dsimp only
    rw [hi]
    simp [hp, guidOfPosition]
  have a : allItems [cb] = ⟨[.store i2, .location i3], none⟩ := by
    unfold allItems allItems
    rw [hi]
    rfl
  have p1 : pickItems ⟨[cb], [cb], false⟩ (some (storeGuid i2)) = .ok (i2, i3) := by
    unfold pickItems matching2 matching3
    dsimp only
    rw [a]
    simp [hg]
  have p2 : pickItems ⟨[cb], [cb], false⟩ none = .error .ShadowCopyNotFoundException := by
    unfold pickItems matching2 matching3
    dsimp only
    rw [a]
    simp
  unfold select
  rw [ho]
  dsimp only
  rw [if_neg (by simp), selectStores, g1]
  dsimp only
  rw [p1]
  dsimp only
  rw [hs]
  dsimp only
  rw [hp, selectStores, g2]
  dsimp only
  rw [p2]
  rfl

/-- Selecting the shadow copy at the stack position 1. -/
theorem select_image (fuel : Nat) : select image (fuel + 2) (.position 1) = some (.ok [store]) := by
  refine select_single file (control 256 ++ zeros 16000) item2 item3 store fuel ?_ (items_control _ (by decide +kernel)) (by decide +kernel)
    (by decide +kernel) ?_
  · refine open_single file start (fuel + 2) _ read_start (by decide +kernel) (by decide +kernel) (by decide +kernel) ?_
    refine chain_single file .control (fun b => .ok b) (fuel + 1) 0x4000 _ _ (by decide) read_control ?_ ?_ ?_ rfl
    · exact block_head .control (control 256) (zeros 16000) control_block_length (by rw [control_length]; omega)
        (by decide +kernel) (by decide +kernel) (by decide +kernel)
    · exact (u64_head _ _ _ (by rw [control_length]; omega)).trans (by decide +kernel)
    · exact (u64_head _ _ _ (by rw [control_length]; omega)).trans (by decide +kernel)
  · refine readStore_single file item2 item3 (fuel + 2) 0x8000 ⟨0, 0, 0xC000, 0, 0⟩ (by decide +kernel) (by decide +kernel) (by decide +kernel)
      (by decide +kernel) (by decide +kernel) (by decide +kernel) (by decide +kernel) ?_ rfl (by decide +kernel)
    refine chain_single file .diffArea diffAreaEntries (fuel + 1) 0x8000 _ _ (by decide) read_table ?_ ?_ ?_
      (entries_table _ table_block_length (by decide +kernel))
    · exact block_head .diffArea table (zeros 16224) table_block_length (by rw [table_length]; omega)
        (by decide +kernel) (by decide +kernel) (by decide +kernel)
    · exact (u64_head _ _ _ (by rw [table_length]; omega)).trans (by decide +kernel)
    · exact (u64_head _ _ _ (by rw [table_length]; omega)).trans (by decide +kernel)

theorem file_length : file.length = 0x10000 := by
  simp only [file, List.length_append, start_length, control_length, table_length, zeros_length, List.length_replicate]

end Verif.SampleShadow
