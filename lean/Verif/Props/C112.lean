/-
C112: the fields of FAT boot sectors and of the information sector of FAT32.

For every boot sector that is made of the fields in the FAT specification, with any values that fit into them, each question about a field
gets the value of this field, or the exception that the specification of this field calls for (a size that is not allowed, a missing FAT, a
media type that does not exist, …).  The same holds for the information sector.  The serial number, the label and the type are given only
with the signatures that say that they are there.
-/
import Verif.Model.FAT.Marks
import Verif.Spec.BootFields
import Verif.Proof.Chunks
namespace Verif.Props.BootFields
open Verif.FAT Verif.Spec.BootFields Verif.Proof.Chunks

private theorem layout16 (b : Boot) (h : b.Fits 448) :
    slice b.bytes16 0 3 = b.jump ∧
    slice b.bytes16 3 11 = b.oem ∧
    u16 b.bytes16 11 = b.bytesPerSector ∧
    u8 b.bytes16 13 = b.sectorsPerCluster ∧
    u16 b.bytes16 14 = b.reservedSectors ∧
    u8 b.bytes16 16 = b.tables ∧
    u16 b.bytes16 17 = b.rootEntries ∧
    u16 b.bytes16 19 = b.sectors16 ∧
    u8 b.bytes16 21 = b.media ∧
    u16 b.bytes16 22 = b.tableSectors16 ∧
    u16 b.bytes16 24 = b.sectorsPerTrack ∧
    u16 b.bytes16 26 = b.heads ∧
    u32 b.bytes16 28 = b.hidden ∧
    u32 b.bytes16 32 = b.sectors32 ∧
    u8 b.bytes16 36 = b.drive ∧
    u8 b.bytes16 37 = b.flags ∧
    u8 b.bytes16 38 = b.bootSignature ∧
    u32 b.bytes16 39 = b.volumeId ∧
    slice b.bytes16 43 54 = b.label ∧
    slice b.bytes16 54 62 = b.typeText ∧
    slice b.bytes16 62 510 = b.code ∧
    slice b.bytes16 510 512 = [0x55, 0xAA] :=
  ⟨slice_chunk _ 0 rfl (by simp [Boot.common, Boot.extended, natLE_length, h.jump, h.oem, h.label, h.typeText, h.code]) (by rw [h.jump]),
   slice_chunk _ 1 rfl (by simp [Boot.common, Boot.extended, natLE_length, h.jump, h.oem, h.label, h.typeText, h.code]) (by rw [h.oem]),
   u16_chunk _ 2 rfl h.bytesPerSector (by simp [Boot.common, Boot.extended, natLE_length, h.jump, h.oem, h.label, h.typeText, h.code]),
   u8_chunk _ 3 rfl h.sectorsPerCluster (by simp [Boot.common, Boot.extended, natLE_length, h.jump, h.oem, h.label, h.typeText, h.code]),
   u16_chunk _ 4 rfl h.reservedSectors (by simp [Boot.common, Boot.extended, natLE_length, h.jump, h.oem, h.label, h.typeText, h.code]),
   u8_chunk _ 5 rfl h.tables (by simp [Boot.common, Boot.extended, natLE_length, h.jump, h.oem, h.label, h.typeText, h.code]),
   u16_chunk _ 6 rfl h.rootEntries (by simp [Boot.common, Boot.extended, natLE_length, h.jump, h.oem, h.label, h.typeText, h.code]),
   u16_chunk _ 7 rfl h.sectors16 (by simp [Boot.common, Boot.extended, natLE_length, h.jump, h.oem, h.label, h.typeText, h.code]),
   u8_chunk _ 8 rfl h.media (by simp [Boot.common, Boot.extended, natLE_length, h.jump, h.oem, h.label, h.typeText, h.code]),
   u16_chunk _ 9 rfl h.tableSectors16 (by simp [Boot.common, Boot.extended, natLE_length, h.jump, h.oem, h.label, h.typeText, h.code]),
   u16_chunk _ 10 rfl h.sectorsPerTrack (by simp [Boot.common, Boot.extended, natLE_length, h.jump, h.oem, h.label, h.typeText, h.code]),
   u16_chunk _ 11 rfl h.heads (by simp [Boot.common, Boot.extended, natLE_length, h.jump, h.oem, h.label, h.typeText, h.code]),
   u32_chunk _ 12 rfl h.hidden (by simp [Boot.common, Boot.extended, natLE_length, h.jump, h.oem, h.label, h.typeText, h.code]),
   u32_chunk _ 13 rfl h.sectors32 (by simp [Boot.common, Boot.extended, natLE_length, h.jump, h.oem, h.label, h.typeText, h.code]),
   u8_chunk _ 14 rfl h.drive (by simp [Boot.common, Boot.extended, natLE_length, h.jump, h.oem, h.label, h.typeText, h.code]),
   u8_chunk _ 15 rfl h.flags (by simp [Boot.common, Boot.extended, natLE_length, h.jump, h.oem, h.label, h.typeText, h.code]),
   u8_chunk _ 16 rfl h.bootSignature (by simp [Boot.common, Boot.extended, natLE_length, h.jump, h.oem, h.label, h.typeText, h.code]),
   u32_chunk _ 17 rfl h.volumeId (by simp [Boot.common, Boot.extended, natLE_length, h.jump, h.oem, h.label, h.typeText, h.code]),
   slice_chunk _ 18 rfl (by simp [Boot.common, Boot.extended, natLE_length, h.jump, h.oem, h.label, h.typeText, h.code]) (by rw [h.label]),
   slice_chunk _ 19 rfl (by simp [Boot.common, Boot.extended, natLE_length, h.jump, h.oem, h.label, h.typeText, h.code]) (by rw [h.typeText]),
   slice_chunk _ 20 rfl (by simp [Boot.common, Boot.extended, natLE_length, h.jump, h.oem, h.label, h.typeText, h.code]) (by rw [h.code]),
   slice_chunk _ 21 rfl (by simp [Boot.common, Boot.extended, natLE_length, h.jump, h.oem, h.label, h.typeText, h.code]) (rfl)⟩

private theorem layout32 (b : Boot) (x : Boot32) (h : b.Fits 420) (hx : x.Fits) :
    slice (b.bytes32 x) 0 3 = b.jump ∧
    slice (b.bytes32 x) 3 11 = b.oem ∧
    u16 (b.bytes32 x) 11 = b.bytesPerSector ∧
    u8 (b.bytes32 x) 13 = b.sectorsPerCluster ∧
    u16 (b.bytes32 x) 14 = b.reservedSectors ∧
    u8 (b.bytes32 x) 16 = b.tables ∧
    u16 (b.bytes32 x) 17 = b.rootEntries ∧
    u16 (b.bytes32 x) 19 = b.sectors16 ∧
    u8 (b.bytes32 x) 21 = b.media ∧
    u16 (b.bytes32 x) 22 = b.tableSectors16 ∧
    u16 (b.bytes32 x) 24 = b.sectorsPerTrack ∧
    u16 (b.bytes32 x) 26 = b.heads ∧
    u32 (b.bytes32 x) 28 = b.hidden ∧
    u32 (b.bytes32 x) 32 = b.sectors32 ∧
    u32 (b.bytes32 x) 36 = x.tableSectors32 ∧
    u16 (b.bytes32 x) 40 = x.extFlags ∧
    u16 (b.bytes32 x) 42 = x.version ∧
    u32 (b.bytes32 x) 44 = x.rootCluster ∧
    u16 (b.bytes32 x) 48 = x.infoSector ∧
    u16 (b.bytes32 x) 50 = x.backupSector ∧
    slice (b.bytes32 x) 52 64 = x.reserved ∧
    u8 (b.bytes32 x) 64 = b.drive ∧
    u8 (b.bytes32 x) 65 = b.flags ∧
    u8 (b.bytes32 x) 66 = b.bootSignature ∧
    u32 (b.bytes32 x) 67 = b.volumeId ∧
    slice (b.bytes32 x) 71 82 = b.label ∧
    slice (b.bytes32 x) 82 90 = b.typeText ∧
    slice (b.bytes32 x) 90 510 = b.code ∧
    slice (b.bytes32 x) 510 512 = [0x55, 0xAA] :=
  ⟨slice_chunk _ 0 rfl (by simp [Boot.common, Boot.extended, natLE_length, h.jump, h.oem, h.label, h.typeText, h.code, hx.reserved]) (by rw [h.jump]),
   slice_chunk _ 1 rfl (by simp [Boot.common, Boot.extended, natLE_length, h.jump, h.oem, h.label, h.typeText, h.code, hx.reserved]) (by rw [h.oem]),
   u16_chunk _ 2 rfl h.bytesPerSector (by simp [Boot.common, Boot.extended, natLE_length, h.jump, h.oem, h.label, h.typeText, h.code, hx.reserved]),
   u8_chunk _ 3 rfl h.sectorsPerCluster (by simp [Boot.common, Boot.extended, natLE_length, h.jump, h.oem, h.label, h.typeText, h.code, hx.reserved]),
   u16_chunk _ 4 rfl h.reservedSectors (by simp [Boot.common, Boot.extended, natLE_length, h.jump, h.oem, h.label, h.typeText, h.code, hx.reserved]),
   u8_chunk _ 5 rfl h.tables (by simp [Boot.common, Boot.extended, natLE_length, h.jump, h.oem, h.label, h.typeText, h.code, hx.reserved]),
   u16_chunk _ 6 rfl h.rootEntries (by simp [Boot.common, Boot.extended, natLE_length, h.jump, h.oem, h.label, h.typeText, h.code, hx.reserved]),
   u16_chunk _ 7 rfl h.sectors16 (by simp [Boot.common, Boot.extended, natLE_length, h.jump, h.oem, h.label, h.typeText, h.code, hx.reserved]),
   u8_chunk _ 8 rfl h.media (by simp [Boot.common, Boot.extended, natLE_length, h.jump, h.oem, h.label, h.typeText, h.code, hx.reserved]),
   u16_chunk _ 9 rfl h.tableSectors16 (by simp [Boot.common, Boot.extended, natLE_length, h.jump, h.oem, h.label, h.typeText, h.code, hx.reserved]),
   u16_chunk _ 10 rfl h.sectorsPerTrack (by simp [Boot.common, Boot.extended, natLE_length, h.jump, h.oem, h.label, h.typeText, h.code, hx.reserved]),
   u16_chunk _ 11 rfl h.heads (by simp [Boot.common, Boot.extended, natLE_length, h.jump, h.oem, h.label, h.typeText, h.code, hx.reserved]),
   u32_chunk _ 12 rfl h.hidden (by simp [Boot.common, Boot.extended, natLE_length, h.jump, h.oem, h.label, h.typeText, h.code, hx.reserved]),
   u32_chunk _ 13 rfl h.sectors32 (by simp [Boot.common, Boot.extended, natLE_length, h.jump, h.oem, h.label, h.typeText, h.code, hx.reserved]),
   u32_chunk _ 14 rfl hx.tableSectors32 (by simp [Boot.common, Boot.extended, natLE_length, h.jump, h.oem, h.label, h.typeText, h.code, hx.reserved]),
   u16_chunk _ 15 rfl hx.extFlags (by simp [Boot.common, Boot.extended, natLE_length, h.jump, h.oem, h.label, h.typeText, h.code, hx.reserved]),
   u16_chunk _ 16 rfl hx.version (by simp [Boot.common, Boot.extended, natLE_length, h.jump, h.oem, h.label, h.typeText, h.code, hx.reserved]),
   u32_chunk _ 17 rfl hx.rootCluster (by simp [Boot.common, Boot.extended, natLE_length, h.jump, h.oem, h.label, h.typeText, h.code, hx.reserved]),
   u16_chunk _ 18 rfl hx.infoSector (by simp [Boot.common, Boot.extended, natLE_length, h.jump, h.oem, h.label, h.typeText, h.code, hx.reserved]),
   u16_chunk _ 19 rfl hx.backupSector (by simp [Boot.common, Boot.extended, natLE_length, h.jump, h.oem, h.label, h.typeText, h.code, hx.reserved]),
   slice_chunk _ 20 rfl (by simp [Boot.common, Boot.extended, natLE_length, h.jump, h.oem, h.label, h.typeText, h.code, hx.reserved]) (by rw [hx.reserved]),
   u8_chunk _ 21 rfl h.drive (by simp [Boot.common, Boot.extended, natLE_length, h.jump, h.oem, h.label, h.typeText, h.code, hx.reserved]),
   u8_chunk _ 22 rfl h.flags (by simp [Boot.common, Boot.extended, natLE_length, h.jump, h.oem, h.label, h.typeText, h.code, hx.reserved]),
   u8_chunk _ 23 rfl h.bootSignature (by simp [Boot.common, Boot.extended, natLE_length, h.jump, h.oem, h.label, h.typeText, h.code, hx.reserved]),
   u32_chunk _ 24 rfl h.volumeId (by simp [Boot.common, Boot.extended, natLE_length, h.jump, h.oem, h.label, h.typeText, h.code, hx.reserved]),
   slice_chunk _ 25 rfl (by simp [Boot.common, Boot.extended, natLE_length, h.jump, h.oem, h.label, h.typeText, h.code, hx.reserved]) (by rw [h.label]),
   slice_chunk _ 26 rfl (by simp [Boot.common, Boot.extended, natLE_length, h.jump, h.oem, h.label, h.typeText, h.code, hx.reserved]) (by rw [h.typeText]),
   slice_chunk _ 27 rfl (by simp [Boot.common, Boot.extended, natLE_length, h.jump, h.oem, h.label, h.typeText, h.code, hx.reserved]) (by rw [h.code]),
   slice_chunk _ 28 rfl (by simp [Boot.common, Boot.extended, natLE_length, h.jump, h.oem, h.label, h.typeText, h.code, hx.reserved]) (rfl)⟩


/-- The value of a field that has to meet a condition. -/
def checked {α : Type} (ok : Prop) [Decidable ok] (v : α) : Except Exc α := if ok then .ok v else .error .BootSectorException

/-- What the extended fields are, by the signature in front of them. -/
def extendedFields (b : Boot) : Option Nat × Option Bytes × Option Bytes :=
  if b.bootSignature = 0x29 then (some b.volumeId, some b.label, some b.typeText)
  else if b.bootSignature = 0x28 then (some b.volumeId, none, none)
  else (none, none, none)

private theorem bit_pos (v i : Nat) : decide (v &&& 2 ^ i > 0) = v.testBit i := by
  cases hb : v.testBit i with
  | true =>
    rw [decide_eq_true]
    refine Nat.pos_of_ne_zero fun h => ?_
    have := congrArg (fun x => Nat.testBit x i) h
    simp [Nat.testBit_and, Nat.testBit_two_pow_self, hb] at this
  | false =>
    rw [decide_eq_false]
    have : v &&& 2 ^ i = 0 := by
      apply Nat.eq_of_testBit_eq
      intro j
      rw [Nat.testBit_and, Nat.testBit_two_pow, Nat.zero_testBit]
      by_cases hj : i = j
      · subst hj; simp [hb]
      · simp [hj]
    omega

private theorem power_cases (n : Nat) : n ∈ [1, 2, 4, 8, 16, 32, 64, 128, 256] ↔ ∃ k, k ≤ 8 ∧ n = 2 ^ k := by
  constructor
  · intro h
    simp only [List.mem_cons, List.not_mem_nil, or_false] at h
    rcases h with h | h | h | h | h | h | h | h | h
    · exact ⟨0, by omega, h⟩
    · exact ⟨1, by omega, h⟩
    · exact ⟨2, by omega, h⟩
    · exact ⟨3, by omega, h⟩
    · exact ⟨4, by omega, h⟩
    · exact ⟨5, by omega, h⟩
    · exact ⟨6, by omega, h⟩
    · exact ⟨7, by omega, h⟩
    · exact ⟨8, by omega, h⟩
  · rintro ⟨k, hk, rfl⟩
    match k, hk with
    | 0, _ | 1, _ | 2, _ | 3, _ | 4, _ | 5, _ | 6, _ | 7, _ | 8, _ => decide

private theorem clusters_checked (b : Boot) (hlt : b.sectorsPerCluster < 2 ^ 8) (o : BSBPB) (hb : u8 o.buf 13 = b.sectorsPerCluster) :
    o.secPerClus = if b.sectorsPerCluster = 0 then .ok 256 else checked (∃ k, k ≤ 7 ∧ b.sectorsPerCluster = 2 ^ k) b.sectorsPerCluster := by
  unfold BSBPB.secPerClus
  rw [hb]
  by_cases h0 : b.sectorsPerCluster = 0
  · rw [if_pos h0, if_pos h0]; rfl
  · rw [if_neg h0, if_neg h0]
    unfold checked
    dsimp only
    have he : b.sectorsPerCluster ∈ [1, 2, 4, 8, 16, 32, 64, 128, 256] ↔ ∃ k, k ≤ 7 ∧ b.sectorsPerCluster = 2 ^ k := by
      rw [power_cases]
      constructor
      · rintro ⟨k, hk, he⟩
        refine ⟨k, ?_, he⟩
        rw [he] at hlt
        have := (Nat.pow_lt_pow_iff_right (by decide : 1 < 2)).mp hlt
        omega
      · rintro ⟨k, hk, he⟩
        exact ⟨k, by omega, he⟩
    by_cases hm : b.sectorsPerCluster ∈ [1, 2, 4, 8, 16, 32, 64, 128, 256]
    · rw [if_neg (fun h => h hm), if_pos (he.mp hm)]
    · rw [if_pos hm, if_neg (fun h => hm (he.mpr h))]

private theorem media_checked (b : Boot) (hlt : b.media < 2 ^ 8) (o : BSBPB) (hb : u8 o.buf 21 = b.media) :
    o.media = checked (b.media = 0xF0 ∨ 0xF8 ≤ b.media) b.media := by
  unfold BSBPB.media checked
  rw [hb]
  have he : b.media ∈ [0xF0, 0xF8, 0xF9, 0xFA, 0xFB, 0xFC, 0xFD, 0xFE, 0xFF] ↔ b.media = 0xF0 ∨ 0xF8 ≤ b.media := by
    simp only [List.mem_cons, List.not_mem_nil, or_false]
    omega
  by_cases hm : b.media ∈ [0xF0, 0xF8, 0xF9, 0xFA, 0xFB, 0xFC, 0xFD, 0xFE, 0xFF]
  · rw [if_neg (fun h => h hm), if_pos (he.mp hm)]
  · rw [if_pos hm, if_neg (fun h => hm (he.mpr h))]

private theorem not_checked {α : Type} (p : Prop) [Decidable p] (v : α) :
    (if ¬ p then (.error .BootSectorException : Except Exc α) else .ok v) = checked p v := by
  unfold checked; by_cases h : p <;> simp [h]

private theorem ne_checked (n : Nat) : (if n = 0 then (.error .BootSectorException : Except Exc Nat) else .ok n) = checked (n ≠ 0) n := by
  unfold checked; by_cases h : n = 0 <;> simp [h]

private theorem extFields_eq (b : Boot) (o : BSBPB) (hs : o.bootSig = b.bootSignature)
    (hi : (if o.isFat32 = true then u32 o.buf 67 else u32 o.buf 39) = b.volumeId)
    (hl : (if o.isFat32 = true then slice o.buf 71 82 else slice o.buf 43 54) = b.label)
    (ht : (if o.isFat32 = true then slice o.buf 82 90 else slice o.buf 54 62) = b.typeText) : o.extFields = extendedFields b := by
  unfold BSBPB.extFields extendedFields
  rw [hs, ← hi, ← hl, ← ht]
  by_cases h1 : b.bootSignature = 0x29
  · rw [if_pos h1, if_pos h1]
    cases o.isFat32 <;> rfl
  · rw [if_neg h1, if_neg h1]
    by_cases h2 : b.bootSignature = 0x28
    · rw [if_pos h2, if_pos h2]
      cases o.isFat32 <;> rfl
    · rw [if_neg h2, if_neg h2]

/-- **FAT12 and FAT16.** -/
theorem C112_fat16 (b : Boot) (h : b.Fits 448) (o : BSBPB) (hbuf : o.buf = b.bytes16) (hf : o.isFat32 = false) :
    o.buf.length = 512 ∧
    o.jmpBoot = b.jump ∧ o.oemName = b.oem ∧
    o.bytsPerSec = checked (b.bytesPerSector ∈ [512, 1024, 2048, 4096]) b.bytesPerSector ∧
    o.secPerClus = (if b.sectorsPerCluster = 0 then .ok 256
      else checked (∃ k, k ≤ 7 ∧ b.sectorsPerCluster = 2 ^ k) b.sectorsPerCluster) ∧
    o.rsvdSecCnt = checked (b.reservedSectors ≠ 0) b.reservedSectors ∧ o.numFats = checked (b.tables ≠ 0) b.tables ∧
    o.rootEntCnt = .ok b.rootEntries ∧ o.totSec16 = b.sectors16 ∧ o.media = checked (b.media = 0xF0 ∨ 0xF8 ≤ b.media) b.media ∧
    o.fatSz16 = .ok b.tableSectors16 ∧ o.secPerTrk = b.sectorsPerTrack ∧ o.numHeads = b.heads ∧ o.hiddSec = b.hidden ∧
    o.totSec32 = b.sectors32 ∧ o.signature = [0x55, 0xAA] ∧ o.fatSz32 = .ok none ∧ o.fsInfo = .ok none ∧ o.bkBootSec = .ok none ∧
    o.reserved = none ∧ o.drvNum = b.drive ∧ o.dirtyFlags = b.flags ∧ o.isVolumeDirty = (b.flags.testBit 0, b.flags.testBit 1) ∧
    o.bootSig = b.bootSignature ∧ o.extFields = extendedFields b := by
  obtain ⟨h_jump, h_oem, h_bytesPerSector, h_sectorsPerCluster, h_reservedSectors, h_tables, h_rootEntries, h_sectors16, h_media, h_tableSectors16, h_sectorsPerTrack, h_heads, h_hidden, h_sectors32, h_drive, h_flags, h_bootSignature, h_volumeId, h_label, h_typeText, h_code, h_SIG⟩ := layout16 b h
  have hlen : o.buf.length = 512 := by
    rw [hbuf, Boot.bytes16, List.length_flatten]
    simp [Boot.common, Boot.extended, natLE_length, h.jump, h.oem, h.label, h.typeText, h.code]
  rw [← hbuf] at *
  have hdirty : o.dirtyFlags = b.flags := by unfold BSBPB.dirtyFlags; rw [hf]; exact h_flags
  have hsig : o.bootSig = b.bootSignature := by unfold BSBPB.bootSig; rw [hf]; exact h_bootSignature
  refine ⟨hlen, h_jump, h_oem, ?_, clusters_checked b h.sectorsPerCluster o h_sectorsPerCluster, ?_, ?_, ?_, h_sectors16,
    media_checked b h.media o h_media, ?_, h_sectorsPerTrack, h_heads, h_hidden, h_sectors32, h_SIG, ?_, ?_, ?_, ?_, ?_, hdirty, ?_, hsig, ?_⟩
  · unfold BSBPB.bytsPerSec; rw [h_bytesPerSector]; exact not_checked _ _
  · unfold BSBPB.rsvdSecCnt; rw [h_reservedSectors]; exact ne_checked _
  · unfold BSBPB.numFats; rw [h_tables]; exact ne_checked _
  · unfold BSBPB.rootEntCnt; rw [h_rootEntries, hf, if_neg (fun h => by cases h.2)]
  · unfold BSBPB.fatSz16; rw [h_tableSectors16, hf, if_neg (fun h => by cases h.2)]
  · unfold BSBPB.fatSz32; rw [hf]; rfl
  · unfold BSBPB.fsInfo; rw [hf]; rfl
  · unfold BSBPB.bkBootSec; rw [hf]; rfl
  · unfold BSBPB.reserved; rw [hf]; rfl
  · unfold BSBPB.drvNum; rw [hf]; exact h_drive
  · unfold BSBPB.isVolumeDirty; rw [hdirty]; exact Prod.ext (bit_pos _ 0) (bit_pos _ 1)
  · exact extFields_eq b o hsig (by rw [hf]; exact h_volumeId) (by rw [hf]; exact h_label) (by rw [hf]; exact h_typeText)

/-- **FAT32.** -/
theorem C112_fat32 (b : Boot) (x : Boot32) (h : b.Fits 420) (hx : x.Fits) (o : BSBPB) (hbuf : o.buf = b.bytes32 x) (hf : o.isFat32 = true) :
    o.buf.length = 512 ∧
    o.jmpBoot = b.jump ∧ o.oemName = b.oem ∧
    o.bytsPerSec = checked (b.bytesPerSector ∈ [512, 1024, 2048, 4096]) b.bytesPerSector ∧
    o.secPerClus = (if b.sectorsPerCluster = 0 then .ok 256
      else checked (∃ k, k ≤ 7 ∧ b.sectorsPerCluster = 2 ^ k) b.sectorsPerCluster) ∧
    o.rsvdSecCnt = checked (b.reservedSectors ≠ 0) b.reservedSectors ∧ o.numFats = checked (b.tables ≠ 0) b.tables ∧
    o.rootEntCnt = checked (b.rootEntries = 0) 0 ∧ o.totSec16 = b.sectors16 ∧ o.media = checked (b.media = 0xF0 ∨ 0xF8 ≤ b.media) b.media ∧
    o.fatSz16 = checked (b.tableSectors16 = 0) 0 ∧ o.secPerTrk = b.sectorsPerTrack ∧ o.numHeads = b.heads ∧ o.hiddSec = b.hidden ∧
    o.totSec32 = b.sectors32 ∧ o.signature = [0x55, 0xAA] ∧
    o.fatSz32 = checked (x.tableSectors32 ≠ 0) (some x.tableSectors32) ∧
    o.extFlags = (x.extFlags % 16, x.extFlags.testBit 7) ∧
    o.fsVer = (if x.version = 0 then .ok () else .error .NotImplementedError) ∧
    o.rootClus = checked (2 ≤ x.rootCluster) x.rootCluster ∧
    o.fsInfo = checked (x.infoSector ≠ 0) (some x.infoSector) ∧ o.bkBootSec = checked (x.backupSector ≠ 0) (some x.backupSector) ∧
    o.reserved = some x.reserved ∧ o.drvNum = b.drive ∧ o.dirtyFlags = b.flags ∧
    o.isVolumeDirty = (b.flags.testBit 0, b.flags.testBit 1) ∧ o.bootSig = b.bootSignature ∧ o.extFields = extendedFields b := by
  obtain ⟨h_jump, h_oem, h_bytesPerSector, h_sectorsPerCluster, h_reservedSectors, h_tables, h_rootEntries, h_sectors16, h_media, h_tableSectors16, h_sectorsPerTrack, h_heads, h_hidden, h_sectors32, h_tableSectors32, h_extFlags, h_version, h_rootCluster, h_infoSector, h_backupSector, h_reserved, h_drive, h_flags, h_bootSignature, h_volumeId, h_label, h_typeText, h_code, h_SIG⟩ := layout32 b x h hx
  have hlen : o.buf.length = 512 := by
    rw [hbuf, Boot.bytes32, List.length_flatten]
    simp [Boot.common, Boot.extended, natLE_length, h.jump, h.oem, h.label, h.typeText, h.code, hx.reserved]
  rw [← hbuf] at *
  have hdirty : o.dirtyFlags = b.flags := by unfold BSBPB.dirtyFlags; rw [hf]; exact h_flags
  have hsig : o.bootSig = b.bootSignature := by unfold BSBPB.bootSig; rw [hf]; exact h_bootSignature
  refine ⟨hlen, h_jump, h_oem, ?_, clusters_checked b h.sectorsPerCluster o h_sectorsPerCluster, ?_, ?_, ?_, h_sectors16,
    media_checked b h.media o h_media, ?_, h_sectorsPerTrack, h_heads, h_hidden, h_sectors32, h_SIG, ?_, ?_, ?_, ?_, ?_, ?_, ?_, ?_,
    hdirty, ?_, hsig, ?_⟩
  · unfold BSBPB.bytsPerSec; rw [h_bytesPerSector]; exact not_checked _ _
  · unfold BSBPB.rsvdSecCnt; rw [h_reservedSectors]; exact ne_checked _
  · unfold BSBPB.numFats; rw [h_tables]; exact ne_checked _
  · unfold BSBPB.rootEntCnt checked; rw [h_rootEntries, hf]
    by_cases h0 : b.rootEntries = 0
    · rw [if_neg (by omega), if_pos h0, h0]
    · rw [if_pos ⟨by omega, rfl⟩, if_neg h0]
  · unfold BSBPB.fatSz16 checked; rw [h_tableSectors16, hf]
    by_cases h0 : b.tableSectors16 = 0
    · rw [if_neg (by omega), if_pos h0, h0]
    · rw [if_pos ⟨by omega, rfl⟩, if_neg h0]
  · unfold BSBPB.fatSz32 checked; rw [hf, h_tableSectors32, if_neg (by decide)]
    by_cases h0 : x.tableSectors32 = 0 <;> simp [h0]
  · unfold BSBPB.extFlags; rw [h_extFlags]
    exact Prod.ext (Nat.and_two_pow_sub_one_eq_mod _ 4) (bit_pos _ 7)
  · unfold BSBPB.fsVer; rw [hf, h_version, if_neg (by decide)]
    by_cases h0 : x.version = 0 <;> simp [h0]
  · unfold BSBPB.rootClus checked; rw [h_rootCluster]
    by_cases h0 : x.rootCluster < 2
    · rw [if_pos h0, if_neg (by omega)]
    · rw [if_neg h0, if_pos (by omega)]
  · unfold BSBPB.fsInfo checked; rw [hf, h_infoSector, if_neg (by decide)]
    by_cases h0 : x.infoSector = 0 <;> simp [h0]
  · unfold BSBPB.bkBootSec checked; rw [hf, h_backupSector, if_neg (by decide)]
    by_cases h0 : x.backupSector = 0 <;> simp [h0]
  · unfold BSBPB.reserved; rw [hf, if_neg (by decide), h_reserved]
  · unfold BSBPB.drvNum; rw [hf]; exact h_drive
  · unfold BSBPB.isVolumeDirty; rw [hdirty]; exact Prod.ext (bit_pos _ 0) (bit_pos _ 1)
  · exact extFields_eq b o hsig (by rw [hf]; exact h_volumeId) (by rw [hf]; exact h_label) (by rw [hf]; exact h_typeText)

/-- **The information sector.** -/
theorem C112_info (reserved1 reserved2 : Bytes) (free next : Nat) (h1 : reserved1.length = 480) (h2 : reserved2.length = 12) (hf : free < 2 ^ 32)
    (hn : next < 2 ^ 32) :
    ∃ buf, openFsInfo (infoBytes reserved1 free next reserved2) = .ok buf ∧ fsiFreeCount buf = free ∧ fsiNxtFree buf = next ∧
      fsiReserved1 buf = reserved1 ∧ fsiReserved2 buf = reserved2 := by
  have s1 : u32 (infoBytes reserved1 free next reserved2) 0 = 0x41615252 := u32_chunk _ 0 rfl (by decide) rfl
  have s2 : u32 (infoBytes reserved1 free next reserved2) 484 = 0x61417272 := u32_chunk _ 2 rfl (by decide) (by simp [natLE_length, h1])
  have s3 : u32 (infoBytes reserved1 free next reserved2) 508 = 0xAA550000 := u32_chunk _ 6 rfl (by decide) (by simp [natLE_length, h1, h2])
  have hl : (infoBytes reserved1 free next reserved2).length = 512 := by
    rw [infoBytes, List.length_flatten]; simp [natLE_length, h1, h2]
  refine ⟨infoBytes reserved1 free next reserved2, ?_, u32_chunk _ 3 rfl hf (by simp [natLE_length, h1]),
    u32_chunk _ 4 rfl hn (by simp [natLE_length, h1]), slice_chunk _ 1 rfl (by simp [natLE_length]) (by rw [h1]),
    slice_chunk _ 5 rfl (by simp [natLE_length, h1]) (by rw [h2])⟩
  unfold openFsInfo
  rw [hl, s1, s2, s3]
  rfl

/-- A sector without the three signatures is refused, and nothing else of 512 bytes is. -/
theorem C112_info_refused (buf : Bytes) (hl : 512 ≤ buf.length) :
    (openFsInfo buf = .ok buf ∧ u32 buf 0 = 0x41615252 ∧ u32 buf 484 = 0x61417272 ∧ u32 buf 508 = 0xAA550000) ∨
    (openFsInfo buf = .error .FileSystemInfoException ∧ ¬ (u32 buf 0 = 0x41615252 ∧ u32 buf 484 = 0x61417272 ∧ u32 buf 508 = 0xAA550000)) := by
  unfold openFsInfo
  rw [if_neg (by omega)]
  by_cases h : u32 buf 0 = 0x41615252 ∧ u32 buf 484 = 0x61417272 ∧ u32 buf 508 = 0xAA550000
  · refine .inl ⟨?_, h⟩
    rw [h.1, h.2.1, h.2.2, if_neg (fun h => h rfl)]
  · refine .inr ⟨if_pos fun he => h ?_, h⟩
    injection he with h1 he; injection he with h2 h3
    exact ⟨h1, h2, h3⟩

/-! ### Examples -/

/-- The fields of a diskette. -/
def diskette : Boot where
  jump := [0xEB, 0x3C, 0x90]
  oem := "MSDOS5.0".toUTF8.toList
  bytesPerSector := 512
  sectorsPerCluster := 1
  reservedSectors := 1
  tables := 2
  rootEntries := 224
  sectors16 := 2880
  media := 0xF0
  tableSectors16 := 9
  sectorsPerTrack := 18
  heads := 2
  hidden := 0
  sectors32 := 0
  drive := 0
  flags := 1
  bootSignature := 0x29
  volumeId := 0x12345678
  label := "NO NAME    ".toUTF8.toList
  typeText := "FAT12   ".toUTF8.toList
  code := zeros 448

example : diskette.Fits 448 := by constructor <;> decide +kernel

example : BSBPB.isVolumeDirty ⟨diskette.bytes16, false⟩ = (true, false) ∧
    BSBPB.extFields ⟨diskette.bytes16, false⟩ = (some 0x12345678, some "NO NAME    ".toUTF8.toList, some "FAT12   ".toUTF8.toList) ∧
    BSBPB.media ⟨diskette.bytes16, false⟩ = .ok 0xF0 := by decide +kernel

/-- The parser opens the boot sector as one of FAT12 or FAT16, so that the theorem is about the object that it makes. -/
example : openBSBPB diskette.bytes16 false = .ok ⟨diskette.bytes16, false⟩ := by decide +kernel

/-- The fields of a FAT32 volume. -/
def stick : Boot := { diskette with rootEntries := 0, sectors16 := 0, tableSectors16 := 0, reservedSectors := 32, sectorsPerCluster := 8,
                                    media := 0xF8, sectors32 := 2000000, code := zeros 420 }
def stick32 : Boot32 := ⟨1952, 0x81, 0, 2, 1, 6, zeros 12⟩

example : stick.Fits 420 ∧ stick32.Fits := by refine ⟨?_, ?_⟩ <;> constructor <;> decide +kernel

example : openBSBPB (stick.bytes32 stick32) false = .ok ⟨stick.bytes32 stick32, true⟩ ∧
    BSBPB.extFlags ⟨stick.bytes32 stick32, true⟩ = (1, true) ∧ BSBPB.fsInfo ⟨stick.bytes32 stick32, true⟩ = .ok (some 1) := by decide +kernel

example : ∃ buf, openFsInfo (infoBytes (zeros 480) 1000 77 (zeros 12)) = .ok buf ∧ fsiFreeCount buf = 1000 ∧ fsiNxtFree buf = 77 :=
  ⟨_, (by decide +kernel : openFsInfo (infoBytes (zeros 480) 1000 77 (zeros 12)) = .ok (infoBytes (zeros 480) 1000 77 (zeros 12))),
   by decide +kernel, by decide +kernel⟩

end Verif.Props.BootFields
