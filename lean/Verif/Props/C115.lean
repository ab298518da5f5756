/-
C115: the blocks of the shadow copy metadata.

For blocks that are laid out as in `Spec/ShadowBlocks`, with any values that fit into the fields, they are accepted, each question about a field gets
the value of this field, and the items of a control block and of a location description are exactly the ones that are in it, in order.
(The entries of a diff area table are in C45.)
-/
import Verif.Model.ShadowCopy.Fields
import Verif.Spec.ShadowBlocks
import Verif.Proof.Chunks
namespace Verif.Props.ShadowBlocks
open Verif.ShadowCopy Verif.Spec.ShadowBlocks Verif.Proof.Chunks

set_option linter.unusedSimpArgs false in
private theorem start_layout (s : Start) (h : s.Fits) :
    slice s.bytes 0 3 = s.jump ∧
    slice s.bytes 3 7 = s.name ∧
    slice s.bytes 7 7680 = s.area ∧
    slice s.bytes 7680 7696 = mark ∧
    u32 s.bytes 7696 = s.version ∧
    u32 s.bytes 7700 = 1 ∧
    u64 s.bytes 7704 = 7680 ∧
    u64 s.bytes 7712 = 7680 ∧
    u64 s.bytes 7720 = 0 ∧
    u64 s.bytes 7728 = s.controlOffset ∧
    u64 s.bytes 7736 = s.maximum ∧
    slice s.bytes 7744 7760 = s.volume ∧
    slice s.bytes 7760 7776 = s.storage ∧
    u64 s.bytes 7776 = s.application ∧
    u64 s.bytes 7784 = s.freePercentage ∧
    u64 s.bytes 7792 = s.hotPercentage ∧
    u32 s.bytes 7800 = s.hotDays ∧
    u32 s.bytes 7804 = s.protection ∧
    slice s.bytes 7808 8192 = s.rest := by
  have hn : s.name.length = 4 := by rcases h.name with h | h <;> rw [h] <;> rfl
  exact
  ⟨slice_chunk _ 0 rfl (by simp [Start.fields, natLE_length, mark, h.jump, hn, h.area, h.volume, h.storage, h.rest]) (by simp [Start.fields, natLE_length, mark, h.jump, hn, h.area, h.volume, h.storage, h.rest]),
   slice_chunk _ 1 rfl (by simp [Start.fields, natLE_length, mark, h.jump, hn, h.area, h.volume, h.storage, h.rest]) (by simp [Start.fields, natLE_length, mark, h.jump, hn, h.area, h.volume, h.storage, h.rest]),
   slice_chunk _ 2 rfl (by simp [Start.fields, natLE_length, mark, h.jump, hn, h.area, h.volume, h.storage, h.rest]) (by simp [Start.fields, natLE_length, mark, h.jump, hn, h.area, h.volume, h.storage, h.rest]),
   slice_chunk _ 3 rfl (by simp [Start.fields, natLE_length, mark, h.jump, hn, h.area, h.volume, h.storage, h.rest]) (by simp [Start.fields, natLE_length, mark, h.jump, hn, h.area, h.volume, h.storage, h.rest]),
   u32_chunk _ 4 rfl h.version (by simp [Start.fields, natLE_length, mark, h.jump, hn, h.area, h.volume, h.storage, h.rest]),
   u32_chunk _ 5 rfl (by decide) (by simp [Start.fields, natLE_length, mark, h.jump, hn, h.area, h.volume, h.storage, h.rest]),
   u64_chunk _ 6 rfl (by decide) (by simp [Start.fields, natLE_length, mark, h.jump, hn, h.area, h.volume, h.storage, h.rest]),
   u64_chunk _ 7 rfl (by decide) (by simp [Start.fields, natLE_length, mark, h.jump, hn, h.area, h.volume, h.storage, h.rest]),
   u64_chunk _ 8 rfl (by decide) (by simp [Start.fields, natLE_length, mark, h.jump, hn, h.area, h.volume, h.storage, h.rest]),
   u64_chunk _ 9 rfl h.controlOffset (by simp [Start.fields, natLE_length, mark, h.jump, hn, h.area, h.volume, h.storage, h.rest]),
   u64_chunk _ 10 rfl h.maximum (by simp [Start.fields, natLE_length, mark, h.jump, hn, h.area, h.volume, h.storage, h.rest]),
   slice_chunk _ 11 rfl (by simp [Start.fields, natLE_length, mark, h.jump, hn, h.area, h.volume, h.storage, h.rest]) (by simp [Start.fields, natLE_length, mark, h.jump, hn, h.area, h.volume, h.storage, h.rest]),
   slice_chunk _ 12 rfl (by simp [Start.fields, natLE_length, mark, h.jump, hn, h.area, h.volume, h.storage, h.rest]) (by simp [Start.fields, natLE_length, mark, h.jump, hn, h.area, h.volume, h.storage, h.rest]),
   u64_chunk _ 13 rfl h.application (by simp [Start.fields, natLE_length, mark, h.jump, hn, h.area, h.volume, h.storage, h.rest]),
   u64_chunk _ 14 rfl h.freePercentage (by simp [Start.fields, natLE_length, mark, h.jump, hn, h.area, h.volume, h.storage, h.rest]),
   u64_chunk _ 15 rfl h.hotPercentage (by simp [Start.fields, natLE_length, mark, h.jump, hn, h.area, h.volume, h.storage, h.rest]),
   u32_chunk _ 16 rfl h.hotDays (by simp [Start.fields, natLE_length, mark, h.jump, hn, h.area, h.volume, h.storage, h.rest]),
   u32_chunk _ 17 rfl h.protection (by simp [Start.fields, natLE_length, mark, h.jump, hn, h.area, h.volume, h.storage, h.rest]),
   slice_chunk _ 18 rfl (by simp [Start.fields, natLE_length, mark, h.jump, hn, h.area, h.volume, h.storage, h.rest]) (by simp [Start.fields, natLE_length, mark, h.jump, hn, h.area, h.volume, h.storage, h.rest])⟩

set_option linter.unusedSimpArgs false in
private theorem header_layout (s : Header) (h : s.Fits) :
    slice s.bytes 0 16 = mark ∧
    u32 s.bytes 16 = s.version ∧
    u32 s.bytes 20 = s.type ∧
    u64 s.bytes 24 = s.relative ∧
    u64 s.bytes 32 = s.place ∧
    u64 s.bytes 40 = s.next ∧
    slice s.bytes 48 128 = s.rest := by
  exact
  ⟨slice_chunk _ 0 rfl (by simp [Header.fields, natLE_length, mark, h.rest]) (by simp [Header.fields, natLE_length, mark, h.rest]),
   u32_chunk _ 1 rfl h.version (by simp [Header.fields, natLE_length, mark, h.rest]),
   u32_chunk _ 2 rfl h.type (by simp [Header.fields, natLE_length, mark, h.rest]),
   u64_chunk _ 3 rfl h.relative (by simp [Header.fields, natLE_length, mark, h.rest]),
   u64_chunk _ 4 rfl h.place (by simp [Header.fields, natLE_length, mark, h.rest]),
   u64_chunk _ 5 rfl h.next (by simp [Header.fields, natLE_length, mark, h.rest]),
   slice_chunk _ 6 rfl (by simp [Header.fields, natLE_length, mark, h.rest]) (by simp [Header.fields, natLE_length, mark, h.rest])⟩

set_option linter.unusedSimpArgs false in
private theorem described_layout (s : Described) (h : s.Fits) :
    u32 s.bytes 0 = 2 ∧
    u8 s.bytes 4 = s.priority ∧
    slice s.bytes 5 8 = s.unused ∧
    u64 s.bytes 8 = s.size ∧
    slice s.bytes 16 32 = s.guid ∧
    u64 s.bytes 32 = s.position ∧
    u64 s.bytes 40 = s.flags ∧
    u64 s.bytes 48 = s.moment ∧
    u16 s.bytes 56 = s.unknown ∧
    slice s.bytes 58 128 = s.rest := by
  exact
  ⟨u32_chunk _ 0 rfl (by decide) (by simp [Described.fields, natLE_length, h.unused, h.guid, h.rest]),
   u8_chunk _ 1 rfl h.priority (by simp [Described.fields, natLE_length, h.unused, h.guid, h.rest]),
   slice_chunk _ 2 rfl (by simp [Described.fields, natLE_length, h.unused, h.guid, h.rest]) (by simp [Described.fields, natLE_length, h.unused, h.guid, h.rest]),
   u64_chunk _ 3 rfl h.size (by simp [Described.fields, natLE_length, h.unused, h.guid, h.rest]),
   slice_chunk _ 4 rfl (by simp [Described.fields, natLE_length, h.unused, h.guid, h.rest]) (by simp [Described.fields, natLE_length, h.unused, h.guid, h.rest]),
   u64_chunk _ 5 rfl h.position (by simp [Described.fields, natLE_length, h.unused, h.guid, h.rest]),
   u64_chunk _ 6 rfl h.flags (by simp [Described.fields, natLE_length, h.unused, h.guid, h.rest]),
   u64_chunk _ 7 rfl h.moment (by simp [Described.fields, natLE_length, h.unused, h.guid, h.rest]),
   u16_chunk _ 8 rfl h.unknown (by simp [Described.fields, natLE_length, h.unused, h.guid, h.rest]),
   slice_chunk _ 9 rfl (by simp [Described.fields, natLE_length, h.unused, h.guid, h.rest]) (by simp [Described.fields, natLE_length, h.unused, h.guid, h.rest])⟩

set_option linter.unusedSimpArgs false in
private theorem located_layout (s : Located) (h : s.Fits) :
    u32 s.bytes 0 = 3 ∧
    slice s.bytes 4 8 = s.unused ∧
    u64 s.bytes 8 = s.table ∧
    slice s.bytes 16 32 = s.guid ∧
    u64 s.bytes 32 = s.application ∧
    u64 s.bytes 40 = s.description ∧
    u64 s.bytes 48 = s.bitmap ∧
    u64 s.bytes 56 = s.reference ∧
    u64 s.bytes 64 = s.allocated ∧
    u64 s.bytes 72 = s.previousBitmap ∧
    u32 s.bytes 80 = s.unknown ∧
    slice s.bytes 84 128 = s.rest := by
  exact
  ⟨u32_chunk _ 0 rfl (by decide) (by simp [Located.fields, natLE_length, h.unused, h.guid, h.rest]),
   slice_chunk _ 1 rfl (by simp [Located.fields, natLE_length, h.unused, h.guid, h.rest]) (by simp [Located.fields, natLE_length, h.unused, h.guid, h.rest]),
   u64_chunk _ 2 rfl h.table (by simp [Located.fields, natLE_length, h.unused, h.guid, h.rest]),
   slice_chunk _ 3 rfl (by simp [Located.fields, natLE_length, h.unused, h.guid, h.rest]) (by simp [Located.fields, natLE_length, h.unused, h.guid, h.rest]),
   u64_chunk _ 4 rfl h.application (by simp [Located.fields, natLE_length, h.unused, h.guid, h.rest]),
   u64_chunk _ 5 rfl h.description (by simp [Located.fields, natLE_length, h.unused, h.guid, h.rest]),
   u64_chunk _ 6 rfl h.bitmap (by simp [Located.fields, natLE_length, h.unused, h.guid, h.rest]),
   u64_chunk _ 7 rfl h.reference (by simp [Located.fields, natLE_length, h.unused, h.guid, h.rest]),
   u64_chunk _ 8 rfl h.allocated (by simp [Located.fields, natLE_length, h.unused, h.guid, h.rest]),
   u64_chunk _ 9 rfl h.previousBitmap (by simp [Located.fields, natLE_length, h.unused, h.guid, h.rest]),
   u32_chunk _ 10 rfl h.unknown (by simp [Located.fields, natLE_length, h.unused, h.guid, h.rest]),
   slice_chunk _ 11 rfl (by simp [Located.fields, natLE_length, h.unused, h.guid, h.rest]) (by simp [Located.fields, natLE_length, h.unused, h.guid, h.rest])⟩

private theorem slice_of_slice (b : Bytes) (i j k l : Nat) (hl : i + l ≤ j) : slice (slice b i j) k l = slice b (i + k) (i + l) := by
  unfold slice
  rw [List.drop_take, List.drop_drop, List.take_take]
  congr 1
  omega

private theorem start_length (s : Start) (h : s.Fits) : s.bytes.length = 8192 := by
  have hn : s.name.length = 4 := by rcases h.name with h | h <;> rw [h] <;> rfl
  simp [Start.bytes, Start.fields, natLE_length, mark, h.jump, hn, h.area, h.volume, h.storage, h.rest]

/-- **Start blocks.**  A volume of NTFS or ReFS with a start block is accepted, and each field of it is given. -/
theorem C115_start (s : Start) (h : s.Fits) :
    startBlock s.bytes = .ok () ∧ blockVersion (slice s.bytes 7680 8192) = s.version ∧
    firstControlBlockOffset s.bytes = (if s.controlOffset % 16384 = 0 then .ok s.controlOffset else .error .StartBlockException) ∧
    maxDiffAreaSize s.bytes = s.maximum ∧ volumeGuid s.bytes = s.volume ∧ storageGuid s.bytes = s.storage ∧
    (isStorageLocal s.bytes = true ↔ s.volume = s.storage) ∧ applicationFlags s.bytes = s.application ∧
    freeSpacePercentage s.bytes = s.freePercentage ∧ hotBlocksPercentage s.bytes = s.hotPercentage ∧ hotBlocksDays s.bytes = s.hotDays ∧
    protectionFlags s.bytes = s.protection := by
  obtain ⟨h_jump, h_name, h_area, h_mark, h_version, h_TYPE, h_O1, h_O2, h_O3, h_controlOffset, h_maximum, h_volume, h_storage, h_application, h_freePercentage, h_hotPercentage, h_hotDays, h_protection, h_rest⟩ := start_layout s h
  have hl := start_length s h
  have inner : ∀ k l, l ≤ 512 → slice (slice s.bytes 7680 8192) k l = slice s.bytes (7680 + k) (7680 + l) := fun k l hl => slice_of_slice _ _ _ _ _ (by omega)
  have e4 : ∀ k, k + 4 ≤ 512 → u32 (slice s.bytes 7680 8192) k = u32 s.bytes (7680 + k) := fun k hk => by
    unfold u32; rw [inner _ _ hk]; rfl
  have e8 : ∀ k, k + 8 ≤ 512 → u64 (slice s.bytes 7680 8192) k = u64 s.bytes (7680 + k) := fun k hk => by
    unfold u64; rw [inner _ _ hk]; rfl
  refine ⟨?_, ?_, ?_, h_maximum, h_volume, h_storage, ?_, h_application, h_freePercentage, h_hotPercentage, h_hotDays, h_protection⟩
  · unfold startBlock offset1 offset2 offset3 blockType
    dsimp only
    rw [if_neg (fun hc => hc hl), if_neg, inner 0 16 (by decide), if_neg, e8 24 (by decide), if_neg, e8 32 (by decide), if_neg, e8 40 (by decide), if_neg,
      e4 20 (by decide), if_neg]
    · exact fun hc => hc h_TYPE
    · exact fun hc => hc h_O3
    · exact fun hc => hc h_O2
    · exact fun hc => hc h_O1
    · exact fun hc => hc h_mark
    · rw [h_name]
      rcases h.name with hn | hn <;> rw [hn] <;> decide
  · unfold blockVersion; rw [e4 16 (by decide)]; exact h_version
  · unfold firstControlBlockOffset
    rw [h_controlOffset]
    dsimp only
    by_cases hc : s.controlOffset % 16384 = 0
    · rw [if_neg (by omega), if_pos hc]
    · rw [if_pos (by omega), if_neg hc]
  · unfold isStorageLocal
    rw [h_volume, h_storage, decide_eq_true_eq]

private theorem header_length (s : Header) (h : s.Fits) : s.bytes.length = 128 := by
  simp [Header.bytes, Header.fields, natLE_length, mark, h.rest]

private theorem slice_left {a b : Bytes} {i j : Nat} (h : j ≤ a.length) : slice (a ++ b) i j = slice a i j := by
  unfold slice
  by_cases hi : i ≤ a.length
  · rw [List.drop_append_of_le_length hi, List.take_append_of_le_length (by rw [List.length_drop]; omega)]
  · rw [show j - i = 0 by omega, List.take_zero, List.take_zero]

private theorem slice_right {a b : Bytes} {n i j : Nat} (h : a.length = n) : slice (a ++ b) (n + i) (n + j) = slice b i j := by
  unfold slice
  rw [← h, List.drop_length_add_append]
  congr 1
  omega

/-- **Blocks of the chains.**  A block of 16 KiB with a header of the right type is accepted (a control block only at a multiple of 16 KiB in its file), and
each field of the header and the contents after it are given. -/
theorem C115_block (h : Header) (hf : h.Fits) (rest : Bytes) (hl : rest.length = 0x4000 - 0x80) (k : Kind) (hk : h.type = k.type)
    (hr : k = .control → h.relative % 16384 = 0) :
    block k (h.bytes ++ rest) = .ok () ∧ blockGuid (h.bytes ++ rest) = mark ∧ blockVersion (h.bytes ++ rest) = h.version ∧
    blockType (h.bytes ++ rest) = h.type ∧ relativeOffset (h.bytes ++ rest) = h.relative ∧ blockOffset (h.bytes ++ rest) = h.place ∧
    nextOffset (h.bytes ++ rest) = h.next ∧ blockContents (h.bytes ++ rest) = rest := by
  obtain ⟨h_mark, h_version, h_type, h_relative, h_place, h_next, h_rest⟩ := header_layout h hf
  have hlen := header_length h hf
  have pre : ∀ i j, j ≤ 128 → slice (h.bytes ++ rest) i j = slice h.bytes i j := fun i j hj => slice_left (by omega)
  have q0 : slice (h.bytes ++ rest) 0 16 = mark := by rw [pre _ _ (by decide)]; exact h_mark
  have q1 : u32 (h.bytes ++ rest) 16 = h.version := by unfold u32; rw [pre _ _ (by decide)]; exact h_version
  have q2 : u32 (h.bytes ++ rest) 20 = h.type := by unfold u32; rw [pre _ _ (by decide)]; exact h_type
  have q3 : u64 (h.bytes ++ rest) 24 = h.relative := by unfold u64; rw [pre _ _ (by decide)]; exact h_relative
  have q4 : u64 (h.bytes ++ rest) 32 = h.place := by unfold u64; rw [pre _ _ (by decide)]; exact h_place
  have q5 : u64 (h.bytes ++ rest) 40 = h.next := by unfold u64; rw [pre _ _ (by decide)]; exact h_next
  refine ⟨?_, q0, q1, q2, q3, q4, q5, ?_⟩
  · unfold block blockType offset1
    rw [q0, q2, q3, if_neg (by rw [List.length_append]; omega), if_neg (fun hc => hc rfl), if_neg (fun hc => hc hk), if_neg]
    rintro ⟨hc, h1, h2⟩
    exact h2 (hr hc)
  · unfold blockContents
    rw [← hlen]; exact List.drop_left

private theorem described_length (s : Described) (h : s.Fits) : s.bytes.length = 128 := by
  simp [Described.bytes, Described.fields, natLE_length, h.unused, h.guid, h.rest]

private theorem located_length (s : Located) (h : s.Fits) : s.bytes.length = 128 := by
  simp [Located.bytes, Located.fields, natLE_length, h.unused, h.guid, h.rest]

/-- **Slots that describe a shadow copy.** -/
theorem C115_described (s : Described) (h : s.Fits) :
    itemType s.bytes = 2 ∧ snapshotPriority s.bytes = s.priority ∧ volumeSize s.bytes = s.size ∧ storeGuid s.bytes = s.guid ∧
    stackPosition s.bytes = s.position ∧ storeFlags s.bytes = s.flags ∧ timestamp s.bytes = s.moment ∧ unknown56 s.bytes = s.unknown := by
  obtain ⟨h_TYPE, h_priority, h_unused, h_size, h_guid, h_position, h_flags, h_moment, h_unknown, h_rest⟩ := described_layout s h
  exact ⟨h_TYPE, h_priority, h_size, h_guid, h_position, h_flags, h_moment, h_unknown⟩

/-- **Slots that say where the blocks of a shadow copy are.** -/
theorem C115_located (s : Located) (h : s.Fits) :
    itemType s.bytes = 3 ∧ diffAreaOffset s.bytes = s.table ∧ storeGuid s.bytes = s.guid ∧ applicationOffset s.bytes = s.application ∧
    locationOffset s.bytes = s.description ∧ bitmapOffset s.bytes = s.bitmap ∧ fileReference s.bytes = s.reference ∧
    allocationSize s.bytes = s.allocated ∧ previousBitmapOffset s.bytes = s.previousBitmap ∧ unknown80 s.bytes = s.unknown := by
  obtain ⟨h_TYPE, h_unused, h_table, h_guid, h_application, h_description, h_bitmap, h_reference, h_allocated, h_previousBitmap, h_unknown, h_rest⟩ := located_layout s h
  exact ⟨h_TYPE, h_table, h_guid, h_application, h_description, h_bitmap, h_reference, h_allocated, h_previousBitmap, h_unknown⟩

/-- The item of a slot; free slots have none. -/
def itemOf : Slot → List Item
  | .free _ => []
  | .described s => [.store s.bytes]
  | .located s => [.location s.bytes]

private theorem slot_length (s : Slot) (h : s.Fits) : s.bytes.length = 128 := by
  cases s with
  | free rest => simp only [Slot.bytes, List.length_append, natLE_length]; exact congrArg (4 + ·) h
  | described s => exact described_length s h.1
  | located s => exact located_length s h

private theorem items_slots : ∀ (slots : List Slot) (pre tail : Bytes), (∀ s ∈ slots, s.Fits) → Ends tail →
    (pre ++ (slots.map Slot.bytes).flatten ++ tail).length = 0x4000 →
    itemsLoop (pre ++ (slots.map Slot.bytes).flatten ++ tail) pre.length = ⟨slots.flatMap itemOf, none⟩
  | [], pre, tail, _, ht, hl => by
    rw [itemsLoop]
    simp only [List.map_nil, List.flatten_nil, List.append_nil, List.flatMap_nil] at hl ⊢
    rcases ht with rfl | ht
    · rw [List.append_nil] at hl
      rw [if_neg (by omega)]; rfl
    · have h4 : 4 ≤ tail.length := by
        have := congrArg List.length ht
        rw [List.length_take, zeros_length] at this
        omega
      rw [List.length_append] at hl
      have hs : slice (pre ++ tail) pre.length (pre.length + 4) = zeros 4 := by
        have := slice_right (a := pre) (b := tail) (i := 0) (j := 4) rfl
        rw [Nat.add_zero] at this
        rw [this]; exact ht
      have hu : u32 (pre ++ tail) pre.length = 0 := by unfold u32; rw [hs]; decide
      rw [if_pos (by omega), hs, if_neg (by rw [zeros_length]; decide), hu, if_pos rfl]
      rfl
  | s :: slots, pre, tail, hf, ht, hl => by
    have hs := hf s (List.mem_cons_self ..)
    have hsl := slot_length s hs
    have ih := items_slots slots (pre ++ s.bytes) tail (fun x hx => hf x (List.mem_cons_of_mem _ hx)) ht (by
      simpa only [List.map_cons, List.flatten_cons, List.append_assoc] using hl)
    have hassoc : pre ++ ((s :: slots).map Slot.bytes).flatten ++ tail = pre ++ s.bytes ++ (slots.map Slot.bytes).flatten ++ tail := by
      simp only [List.map_cons, List.flatten_cons, List.append_assoc]
    rw [hassoc] at hl ⊢
    rw [show (pre ++ s.bytes).length = pre.length + 0x80 by rw [List.length_append, hsl]] at ih
    have hsl2 : ∀ i j, j ≤ 128 → slice (pre ++ s.bytes ++ (slots.map Slot.bytes).flatten ++ tail) (pre.length + i) (pre.length + j) = slice s.bytes i j :=
      fun i j hj => by
        rw [List.append_assoc, List.append_assoc, slice_right rfl, slice_left (by omega)]
    generalize hd : pre ++ s.bytes ++ (slots.map Slot.bytes).flatten ++ tail = data at *
    have hlt : pre.length < 0x4000 := by
      rw [← hl, ← hd]
      simp only [List.length_append, hsl]; omega
    have h04 : slice data pre.length (pre.length + 4) = slice s.bytes 0 4 := hsl2 0 4 (by decide)
    have hu : u32 data pre.length = u32 s.bytes 0 := by unfold u32; rw [h04]
    have hraw : slice data pre.length (pre.length + 0x80) = s.bytes := by
      have := hsl2 0 128 (by decide)
      rw [Nat.add_zero] at this
      rw [this]; unfold slice; rw [List.drop_zero, List.take_of_length_le (by omega)]
    rw [itemsLoop, if_pos hlt, h04, if_neg (by rw [slice_length_of_le (by omega)]; decide), hu, hraw]
    cases s with
    | free rest =>
      have hty : u32 (Slot.free rest).bytes 0 = 1 := by
        unfold u32 Slot.bytes
        rw [slice_left (by rw [natLE_length]; decide)]; decide
      rw [hty, if_neg (by decide), if_neg (by decide), if_pos rfl, ih]
      rfl
    | described d =>
      have hty : u32 (Slot.described d).bytes 0 = 2 := (C115_described d hs.1).1
      have hsz : volumeSize (Slot.described d).bytes = d.size := (C115_described d hs.1).2.2.1
      rw [hty, if_neg (by decide), if_neg (by decide), if_neg (by decide)]
      dsimp only
      rw [if_neg (by omega), if_pos rfl, hsz, if_neg (by have := hs.2; omega), ih]
      rfl
    | located d =>
      have hty : u32 (Slot.located d).bytes 0 = 3 := (C115_located d hs).1
      rw [hty, if_neg (by decide), if_neg (by decide), if_neg (by decide)]
      dsimp only
      rw [if_neg (by omega), if_neg (by decide), ih]
      rfl

/-- **The items of a control block** are its slots up to the end, in order, without the free ones. -/
theorem C115_items (h : Header) (hf : h.Fits) (slots : List Slot) (tail : Bytes) (hs : ∀ s ∈ slots, s.Fits) (ht : Ends tail)
    (hl : (control h slots tail).length = 0x4000) : items (control h slots tail) = ⟨slots.flatMap itemOf, none⟩ := by
  have := items_slots slots h.bytes tail hs ht hl
  rw [header_length h hf] at this
  exact this

private theorem run_length (r : Run) : r.bytes.length = 24 := by simp [Run.bytes, natLE_length]

private theorem run_layout (r : Run) (h : r.Fits) : u64 r.bytes 0 = r.place ∧ u64 r.bytes 8 = r.offset ∧ u64 r.bytes 16 = r.size := by
  have hb : r.bytes = [natLE 8 r.place, natLE 8 r.offset, natLE 8 r.size].flatten := by simp [Run.bytes]
  rw [hb]
  obtain ⟨-, h1, h2, -, h3⟩ := h
  exact ⟨u64_chunk _ 0 rfl h1 (by simp), u64_chunk _ 1 rfl h2 (by simp [natLE_length]), u64_chunk _ 2 rfl h3 (by simp [natLE_length])⟩

private theorem locations_runs : ∀ (runs : List Run) (pre tail : Bytes), (∀ r ∈ runs, r.Fits) → (tail.length < 24 ∨ tail.take 8 = zeros 8) →
    locationLoop (pre ++ (runs.map Run.bytes).flatten ++ tail) pre.length = .ok (runs.map fun r => ⟨r.place, r.offset, r.size⟩)
  | [], pre, tail, _, ht => by
    rw [locationLoop]
    simp only [List.map_nil, List.flatten_nil, List.append_nil]
    rw [List.length_append]
    by_cases h24 : tail.length < 24
    · rw [if_neg (by omega)]
    · rw [if_pos (by omega)]
      have ht := ht.resolve_left h24
      have hu : u64 (slice (pre ++ tail) pre.length (pre.length + 24)) 0 = 0 := by
        have := slice_right (a := pre) (b := tail) (i := 0) (j := 24) rfl
        rw [Nat.add_zero] at this
        rw [this]
        unfold u64
        rw [slice_of_slice _ _ _ _ _ (by decide)]
        show leNat (tail.take 8) = 0
        rw [ht]; decide
      rw [hu, if_pos rfl]
  | r :: runs, pre, tail, hf, ht => by
    have hr := hf r (List.mem_cons_self ..)
    have ih := locations_runs runs (pre ++ r.bytes) tail (fun x hx => hf x (List.mem_cons_of_mem _ hx)) ht
    have hassoc : pre ++ ((r :: runs).map Run.bytes).flatten ++ tail = pre ++ r.bytes ++ (runs.map Run.bytes).flatten ++ tail := by
      simp only [List.map_cons, List.flatten_cons, List.append_assoc]
    rw [hassoc]
    rw [show (pre ++ r.bytes).length = pre.length + 24 by rw [List.length_append, run_length]] at ih
    have hraw : slice (pre ++ r.bytes ++ (runs.map Run.bytes).flatten ++ tail) pre.length (pre.length + 24) = r.bytes := by
      have := slice_right (a := pre) (b := r.bytes ++ ((runs.map Run.bytes).flatten ++ tail)) (i := 0) (j := 24) rfl
      rw [Nat.add_zero] at this
      rw [List.append_assoc, List.append_assoc, this, slice_left (by rw [run_length]; decide)]
      unfold slice; rw [List.drop_zero, List.take_of_length_le (by rw [run_length]; decide)]
    have hlen : pre.length + 24 ≤ (pre ++ r.bytes ++ (runs.map Run.bytes).flatten ++ tail).length := by
      simp only [List.length_append, run_length]; omega
    obtain ⟨u0, u8_, u16_⟩ := run_layout r hr
    rw [locationLoop, if_pos hlen, hraw]
    dsimp only
    rw [u0, u8_, u16_, if_neg (by have := hr.1; omega), if_neg (by have := hr.2.2.2.1; omega), ih]
    rfl

/-- **The items of a location description** are its runs up to the end, in order. -/
theorem C115_locations (h : Header) (hf : h.Fits) (runs : List Run) (tail : Bytes) (hr : ∀ r ∈ runs, r.Fits)
    (ht : tail.length < 24 ∨ tail.take 8 = zeros 8) :
    locations (h.bytes ++ (runs.map Run.bytes).flatten ++ tail) = .ok (runs.map fun r => ⟨r.place, r.offset, r.size⟩) := by
  have := locations_runs runs h.bytes tail hr ht
  rw [header_length h hf] at this
  exact this

/-- **Application information.** -/
theorem C115_application (h : Header) (hf : h.Fits) (rest : Bytes) (hl : rest.length = 0x4000 - 0x80) (hk : h.type = 4) :
    applicationBlock (h.bytes ++ rest) = .ok () ∧ blockOffset (h.bytes ++ rest) = h.place ∧ blockContents (h.bytes ++ rest) = rest := by
  obtain ⟨h_mark, h_version, h_type, h_relative, h_place, h_next, h_rest⟩ := header_layout h hf
  have hlen := header_length h hf
  have pre : ∀ i j, j ≤ 128 → slice (h.bytes ++ rest) i j = slice h.bytes i j := fun i j hj => slice_left (by omega)
  have q0 : slice (h.bytes ++ rest) 0 16 = mark := by rw [pre _ _ (by decide)]; exact h_mark
  have q2 : u32 (h.bytes ++ rest) 20 = h.type := by unfold u32; rw [pre _ _ (by decide)]; exact h_type
  have q4 : u64 (h.bytes ++ rest) 32 = h.place := by unfold u64; rw [pre _ _ (by decide)]; exact h_place
  refine ⟨?_, q4, ?_⟩
  · unfold applicationBlock blockType
    rw [q0, q2, if_neg (by rw [List.length_append]; omega), if_neg (fun hc => hc rfl), if_neg (fun hc => hc hk)]
  · unfold blockContents
    rw [← hlen]; exact List.drop_left

/-! ### Samples -/

def sampleStart : Start :=
  ⟨[0xEB, 0x52, 0x90], [0x4E, 0x54, 0x46, 0x53], zeros 7673, 1, 0x8000, 0x100000, List.replicate 16 7, List.replicate 16 9, 3, 10, 20, 30, 1, zeros 384⟩

theorem sampleStart_fits : sampleStart.Fits := by
  constructor <;> first | exact List.length_replicate | decide

example : startBlock sampleStart.bytes = .ok () ∧ firstControlBlockOffset sampleStart.bytes = .ok 0x8000 ∧ hotBlocksDays sampleStart.bytes = 30 := by
  obtain ⟨h1, -, h2, -, -, -, -, -, -, -, h3, -⟩ := C115_start sampleStart sampleStart_fits
  exact ⟨h1, h2, h3⟩

def sampleHeader : Header := ⟨1, 2, 0x4000, 0xC000, 0, zeros 80⟩

theorem sampleHeader_fits : sampleHeader.Fits := by constructor <;> decide

def sampleSlots : List Slot :=
  [.free (zeros 124), .described ⟨1, zeros 3, 0x200000, List.replicate 16 5, 7, 0x440, 132000000000000000, 9, zeros 70⟩,
   .located ⟨zeros 4, 0x10000, List.replicate 16 5, 0x14000, 0x18000, 0x1C000, 77, 0x40000, 0x20000, 1, zeros 44⟩]

theorem sampleSlots_fit : ∀ s ∈ sampleSlots, s.Fits := by
  intro s hs
  simp only [sampleSlots, List.mem_cons, List.not_mem_nil, or_false] at hs
  rcases hs with rfl | rfl | rfl
  · exact zeros_length _
  · exact ⟨by constructor <;> decide, by decide⟩
  · show Located.Fits _
    constructor <;> decide

theorem sampleControl_length : (control sampleHeader sampleSlots (zeros 15872)).length = 0x4000 := by
  have h3 : ∀ a b c : Slot, a.Fits → b.Fits → c.Fits → (([a, b, c].map Slot.bytes).flatten).length = 384 := fun a b c ha hb hc => by
    simp [slot_length a ha, slot_length b hb, slot_length c hc]
  unfold Spec.ShadowBlocks.control
  rw [List.length_append, List.length_append, header_length _ sampleHeader_fits, zeros_length,
    show ((sampleSlots.map Slot.bytes).flatten).length = 384 from
      h3 _ _ _ (sampleSlots_fit _ (by simp [sampleSlots])) (sampleSlots_fit _ (by simp [sampleSlots])) (sampleSlots_fit _ (by simp [sampleSlots]))]

example : items (control sampleHeader sampleSlots (zeros 15872)) = ⟨sampleSlots.flatMap itemOf, none⟩ ∧ (sampleSlots.flatMap itemOf).length = 2 :=
  ⟨C115_items _ sampleHeader_fits _ _ sampleSlots_fit (Or.inr rfl) sampleControl_length, rfl⟩

example : locations (Header.bytes ⟨1, 5, 0, 0x18000, 0, zeros 80⟩ ++ ([⟨0x8000, 0, 0x10000⟩, ⟨0x40000, 0x10000, 0x4000⟩].map Run.bytes).flatten ++ zeros 16208) =
    .ok [⟨0x8000, 0, 0x10000⟩, ⟨0x40000, 0x10000, 0x4000⟩] :=
  C115_locations _ (by constructor <;> decide) _ _ (by simp [Run.Fits]) (Or.inr rfl)

end Verif.Props.ShadowBlocks
