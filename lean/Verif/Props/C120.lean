/-
C120: the fields of the NTFS boot sector, of file record segments, of index buffers and of the master boot record.
-/
import Verif.Spec.Headers
import Verif.Proof.Chunks
import Verif.Proof.Fields
import Verif.Proof.FileRecordSegmentInit
import Verif.Props.C25
import Verif.Model.BootSector
import Verif.Model.AttributeFields
import Verif.Model.PartitionTable
import Verif.Model.ExFAT.Table
namespace Verif.Props.Headers
open Verif.Spec.Headers Verif.Proof.Chunks Verif.Proof.Fields Verif.Spec Verif.Attributes

/-! ### The boot sector -/

/-- A value that is refused when the condition is not met. -/
def allowed (ok : Prop) [Decidable ok] (v : Nat) : Except Exc Nat := if ok then .ok v else .error .BootSectorException

theorem leInt_byte {v : Nat} (h : v < 2 ^ 8) : leInt (natLE 1 v) = if v < 128 then (v : Int) else (v : Int) - 256 := by
  have h' : v < 256 ^ 1 := by simpa using h
  have e : leNat (natLE 1 v) = v := leNat_natLE_of_lt h'
  unfold leInt
  rw [e, natLE_length]
  split <;> split <;> first | omega | (simp at *; omega)

theorem boot_length (b : Boot) (h : b.Fits) : b.bytes.length = 512 := by
  rw [Boot.bytes, List.length_flatten]
  simp [natLE_length, h.jump, h.unused, h.gap1, h.gap2, h.code, ntfsName]

theorem bytesPerSector_eq (b : Boot) (h : b.Fits) :
    BootSector.bytesPerSector b.bytes = allowed (b.bytesPerSector ≠ 0 ∧ 512 ∣ b.bytesPerSector) b.bytesPerSector := by
  have e : u16 b.bytes 11 = b.bytesPerSector := u16_chunk _ 2 rfl h.bytesPerSector (by simp [h.jump, ntfsName])
  have hl := boot_length b h
  have es : slice b.bytes 11 13 = natLE 2 b.bytesPerSector := slice_chunk _ 2 rfl (by simp [h.jump, ntfsName]) rfl
  have e3 : u8 b.bytes 11 = b.bytesPerSector % 256 := by
    unfold u8
    rw [show slice b.bytes 11 (11 + 1) = slice (slice b.bytes 11 13) 0 1 from (slice_slice b.bytes 11 13 0 1 (by omega)).symm, es]
    simp [natLE, slice, leNat]
  have e4 : u8 b.bytes 12 = b.bytesPerSector / 256 % 256 := by
    unfold u8
    rw [show slice b.bytes 12 (12 + 1) = slice (slice b.bytes 11 13) 1 2 from (slice_slice b.bytes 11 13 1 2 (by omega)).symm, es]
    simp [natLE, slice, leNat]
  have hv := h.bytesPerSector
  have e1 : b.bytesPerSector = u8 b.bytes 11 + 256 * u8 b.bytes 12 := by omega
  have e2 : u8 b.bytes 11 < 256 := by omega
  unfold BootSector.bytesPerSector allowed
  dsimp only
  by_cases h0 : u8 b.bytes 11 = 0
  · rw [if_neg (by omega)]
    by_cases h1 : u8 b.bytes 12 * 256 < 512 ∨ u8 b.bytes 12 * 256 % 512 ≠ 0
    · rw [if_pos h1, if_neg (by omega)]
    · rw [if_neg h1, if_pos (by omega)]
      congr 1; omega
  · rw [if_pos h0, if_neg (by omega)]

theorem sectorsPerCluster_eq (b : Boot) (h : b.Fits) :
    BootSector.sectorsPerCluster b.bytes = allowed (b.sectorsPerCluster ≠ 0) (clusterSectors b.sectorsPerCluster) := by
  have e : u8 b.bytes 13 = b.sectorsPerCluster := u8_chunk _ 3 rfl h.sectorsPerCluster (by simp [natLE_length, h.jump, ntfsName])
  have e' : slice b.bytes 13 14 = natLE 1 b.sectorsPerCluster := slice_chunk _ 3 rfl (by simp [natLE_length, h.jump, ntfsName]) rfl
  have hv := h.sectorsPerCluster
  unfold BootSector.sectorsPerCluster allowed clusterSectors
  dsimp only
  rw [e, e', leInt_byte hv]
  by_cases h0 : b.sectorsPerCluster = 0
  · rw [if_pos h0, if_neg (by omega)]
  · rw [if_neg h0, if_pos h0]
    by_cases h1 : b.sectorsPerCluster ≤ 128
    · rw [if_pos h1, if_pos h1]
    · rw [if_neg h1, if_neg h1, if_neg (by omega), Nat.shiftLeft_eq, Nat.one_mul]
      congr 2; omega

theorem signedSize_eq (b : Boot) (h : b.Fits) (off v : Nat) (hv : v < 2 ^ 8) (hs : slice b.bytes off (off + 1) = natLE 1 v) :
    BootSector.signedSize b.bytes off =
      if v < 128 then
        if b.sectorsPerCluster ≠ 0 ∧ b.bytesPerSector ≠ 0 ∧ 512 ∣ b.bytesPerSector ∧ v ≠ 0 then
          .ok (v * (clusterSectors b.sectorsPerCluster * b.bytesPerSector))
        else .error .BootSectorException
      else .ok (2 ^ (256 - v)) := by
  unfold BootSector.signedSize
  rw [hs, leInt_byte hv]
  by_cases h1 : v < 128
  · simp only [if_pos h1]
    rw [if_pos (by omega), sectorsPerCluster_eq b h, bytesPerSector_eq b h]
    unfold allowed
    by_cases h2 : b.sectorsPerCluster ≠ 0
    · by_cases h3 : b.bytesPerSector ≠ 0 ∧ 512 ∣ b.bytesPerSector
      · rw [if_pos h2, if_pos h3]
        have hc : 0 < clusterSectors b.sectorsPerCluster := by
          unfold clusterSectors
          split
          · omega
          · exact Nat.two_pow_pos _
        by_cases h4 : v = 0
        · subst h4
          rw [if_neg (by omega)]
          simp [bind, Except.bind, pure, Except.pure]
        · rw [if_pos ⟨h2, h3.1, h3.2, h4⟩]
          have : v * clusterSectors b.sectorsPerCluster * b.bytesPerSector ≠ 0 := by
            simp only [ne_eq, Nat.mul_eq_zero]
            omega
          simp only [bind, Except.bind, pure, Except.pure, Int.toNat_natCast]
          rw [if_neg this, Nat.mul_assoc]
      · rw [if_pos h2, if_neg h3, if_neg (fun hx => h3 ⟨hx.2.1, hx.2.2.1⟩)]; rfl
    · have hn : ¬ (b.sectorsPerCluster ≠ 0 ∧ b.bytesPerSector ≠ 0 ∧ 512 ∣ b.bytesPerSector ∧ v ≠ 0) := fun hx => h2 hx.1
      rw [if_neg h2, if_neg hn]; rfl
  · simp only [if_neg h1]
    rw [if_neg (by omega)]
    have : 2 ^ (256 - v) ≠ 0 := Nat.ne_of_gt (Nat.two_pow_pos _)
    simp only [bind, Except.bind, pure, Except.pure]
    rw [show ((v : Int) - 256).natAbs = 256 - v by omega, Nat.shiftLeft_eq, Nat.one_mul, if_neg this]

/-- C120: the boot sector of NTFS is accepted, and each field is shown with its value, or is refused when there is no such value. -/
theorem C120_boot_sector (b : Boot) (h : b.Fits) :
    BootSector.init b.bytes = .ok b.bytes ∧
    BootSector.bytesPerSector b.bytes = allowed (b.bytesPerSector ≠ 0 ∧ 512 ∣ b.bytesPerSector) b.bytesPerSector ∧
    BootSector.sectorsPerCluster b.bytes = allowed (b.sectorsPerCluster ≠ 0) (clusterSectors b.sectorsPerCluster) ∧
    BootSector.totalNumberOfSectors b.bytes = allowed (b.sectors ≠ 0) b.sectors ∧
    BootSector.firstMftCluster b.bytes = allowed (b.mftCluster ≠ 0) b.mftCluster ∧
    BootSector.firstMftMirrCluster b.bytes = allowed (b.mirrorCluster ≠ 0) b.mirrorCluster ∧
    BootSector.serialNumber b.bytes = b.serial ∧
    BootSector.isBootCodePresent b.bytes = decide (b.jump.take 2 ≠ [0, 0] ∧ b.signature = 0xAA55) := by
  have hl := boot_length b h
  have e1 : u64 b.bytes 40 = b.sectors := u64_chunk _ 5 rfl h.sectors (by simp [natLE_length, h.jump, h.unused, ntfsName])
  have e2 : u64 b.bytes 48 = b.mftCluster := u64_chunk _ 6 rfl h.mftCluster (by simp [natLE_length, h.jump, h.unused, ntfsName])
  have e3 : u64 b.bytes 56 = b.mirrorCluster := u64_chunk _ 7 rfl h.mirrorCluster (by simp [natLE_length, h.jump, h.unused, ntfsName])
  have e4 : u64 b.bytes 72 = b.serial := u64_chunk _ 12 rfl h.serial (by simp [natLE_length, h.jump, h.unused, h.gap1, h.gap2, ntfsName])
  have e5 : u16 b.bytes 510 = b.signature := u16_chunk _ 15 rfl h.signature
    (by simp [natLE_length, h.jump, h.unused, h.gap1, h.gap2, h.code, ntfsName])
  have e6 : slice b.bytes 3 11 = ntfsName := slice_chunk _ 1 rfl (by simp [h.jump]) rfl
  have e7 : slice b.bytes 0 3 = b.jump := slice_chunk _ 0 rfl rfl (by rw [h.jump])
  refine ⟨?_, bytesPerSector_eq b h, sectorsPerCluster_eq b h, ?_, ?_, ?_, e4, ?_⟩
  · unfold BootSector.init
    rw [hl, e6]
    rfl
  · unfold BootSector.totalNumberOfSectors BootSector.nonzero64 allowed
    rw [e1]; split <;> simp_all
  · unfold BootSector.firstMftCluster BootSector.nonzero64 allowed
    rw [e2]; split <;> simp_all
  · unfold BootSector.firstMftMirrCluster BootSector.nonzero64 allowed
    rw [e3]; split <;> simp_all
  · unfold BootSector.isBootCodePresent
    rw [e5]
    have e8 : slice b.bytes 0 2 = b.jump.take 2 := by
      rw [← e7, show slice b.bytes 0 2 = slice (slice b.bytes 0 3) 0 2 from (slice_slice b.bytes 0 3 0 2 (by omega)).symm]
      rfl
    have hj := h.jump
    unfold u16
    rw [show (0 + 2 : Nat) = 2 from rfl, e8]
    match hjm : b.jump, hj with
    | [x, y, z], _ =>
      have hz : leNat [x, y] = 0 ↔ [x, y] = ([0, 0] : Bytes) := by
        simp only [leNat, List.cons.injEq, and_true]
        constructor
        · intro h0
          have h1 : x.toNat = 0 := by omega
          have h2 : y.toNat = 0 := by omega
          exact ⟨UInt8.toNat_inj.1 h1, UInt8.toNat_inj.1 h2⟩
        · rintro ⟨rfl, rfl⟩; rfl
      have hz' : (leNat [x, y] ≠ 0 ∧ b.signature = 0xAA55) ↔ ([x, y] ≠ ([0, 0] : Bytes) ∧ b.signature = 0xAA55) := by rw [ne_eq, hz]
      by_cases hq : [x, y] ≠ ([0, 0] : Bytes) ∧ b.signature = 0xAA55
      · exact (decide_eq_true (hz'.2 hq)).trans (decide_eq_true hq).symm
      · exact (decide_eq_false (fun hh => hq (hz'.1 hh))).trans (decide_eq_false hq).symm

/-- C120: the sizes of file record segments and of index buffers. -/
theorem C120_boot_sizes (b : Boot) (h : b.Fits) :
    (∀ v, v = b.segmentSize → BootSector.fileRecordSegmentSize b.bytes =
      if v < 128 ∧ ¬ (b.sectorsPerCluster ≠ 0 ∧ b.bytesPerSector ≠ 0 ∧ 512 ∣ b.bytesPerSector ∧ v ≠ 0) then .error .BootSectorException
      else .ok (recordSize v (clusterSectors b.sectorsPerCluster * b.bytesPerSector))) ∧
    (∀ v, v = b.indexSize → BootSector.indexRecordSize b.bytes =
      if v < 128 ∧ ¬ (b.sectorsPerCluster ≠ 0 ∧ b.bytesPerSector ≠ 0 ∧ 512 ∣ b.bytesPerSector ∧ v ≠ 0) then .error .BootSectorException
      else .ok (recordSize v (clusterSectors b.sectorsPerCluster * b.bytesPerSector))) := by
  have e1 : slice b.bytes 64 65 = natLE 1 b.segmentSize := slice_chunk _ 8 rfl (by simp [natLE_length, h.jump, h.unused, ntfsName]) rfl
  have e2 : slice b.bytes 68 69 = natLE 1 b.indexSize := slice_chunk _ 10 rfl (by simp [natLE_length, h.jump, h.unused, h.gap1, ntfsName]) rfl
  constructor
  · rintro v rfl
    unfold BootSector.fileRecordSegmentSize recordSize
    rw [signedSize_eq b h 64 _ h.segmentSize e1]
    split <;> split <;> simp_all
  · rintro v rfl
    unfold BootSector.indexRecordSize recordSize
    rw [signedSize_eq b h 68 _ h.indexSize e2]
    split <;> split <;> simp_all

/-! ### File record segments -/

theorem init_plain {buf : Bytes} {apply : Bool} {s : Option Nat} {f : MFT.FileRecordSegment} (h : MFT.FileRecordSegment.init buf apply s = .ok f) :
    MFT.SameHeader f.data buf ∧ f.shortVersion = decide (u16 buf 4 < 48) ∧ f.suggestedMftNumber = s := by
  cases apply with
  | true =>
    obtain ⟨-, -, h3, -, -, h6, h7, -⟩ := MFT.init_ok h
    exact ⟨h3, h6, h7⟩
  | false =>
    unfold MFT.FileRecordSegment.init at h
    split at h
    · cases h
    split at h
    · cases h
    rename_i o c hp
    have ho : o = u16 buf 4 := by
      unfold MFT.parseMultiSectorHeader at hp
      dsimp only at hp
      repeat' split at hp
      all_goals first | cases hp | skip
      rfl
    rw [if_neg (by simp)] at h
    split at h
    · cases h
    · cases h
      rw [ho]
      exact ⟨⟨rfl, fun _ _ => rfl⟩, rfl, rfl⟩

/-- C120: each field in the header of a file record segment that is accepted (with its update sequence array applied or not). -/
theorem C120_segment (s : Segment) (h : s.Fits) (apply : Bool) (suggested : Option Nat) (f : MFT.FileRecordSegment)
    (hf : MFT.FileRecordSegment.init s.bytes apply suggested = .ok f) :
    f.isBad = decide (s.signature ≠ "FILE".toUTF8.toList) ∧ f.logfileSequenceNumber = s.lsn ∧ f.sequenceNumber = s.sequence ∧
    f.referenceCount = s.references ∧ MFT.firstAttributeOffset f.data = s.firstAttribute ∧ f.flags = s.flags ∧ f.isInUse = s.flags.testBit 0 ∧
    MFT.firstFreeByteOffset f.data = s.used ∧ MFT.fileRecordSegmentSize f.data = s.size ∧ f.baseFileRecordSegment = s.base ∧
    f.isBaseFileRecordSegment = decide (s.base = 0) ∧
    f.masterFileTableNumber = if s.arrayOffset < 48 then suggested else some (s.numberHigh * 2 ^ 32 + s.numberLow) := by
  obtain ⟨h1, h2, h3⟩ := init_plain hf
  have w : ∀ i j, j ≤ 510 → slice f.data i j = slice s.bytes i j := fun i j hj => h1.slice hj
  have c0 : slice s.bytes 0 4 = s.signature := slice_chunk _ 0 rfl rfl (by rw [h.signature])
  have c1 : leNat (slice s.bytes 4 6) = s.arrayOffset := u16_chunk _ 1 rfl h.arrayOffset (by simp [h.signature])
  have c2 : leNat (slice s.bytes 8 16) = s.lsn := u64_chunk _ 3 rfl h.lsn (by simp [natLE_length, h.signature])
  have c3 : leNat (slice s.bytes 16 18) = s.sequence := u16_chunk _ 4 rfl h.sequence (by simp [natLE_length, h.signature])
  have c4 : leNat (slice s.bytes 18 20) = s.references := u16_chunk _ 5 rfl h.references (by simp [natLE_length, h.signature])
  have c5 : leNat (slice s.bytes 20 22) = s.firstAttribute := u16_chunk _ 6 rfl h.firstAttribute (by simp [natLE_length, h.signature])
  have c6 : leNat (slice s.bytes 22 24) = s.flags := u16_chunk _ 7 rfl h.flags (by simp [natLE_length, h.signature])
  have c7 : leNat (slice s.bytes 24 28) = s.used := u32_chunk _ 8 rfl h.used (by simp [natLE_length, h.signature])
  have c8 : leNat (slice s.bytes 28 32) = s.size := u32_chunk _ 9 rfl h.size (by simp [natLE_length, h.signature])
  have c9 : leNat (slice s.bytes 32 40) = s.base := u64_chunk _ 10 rfl h.base (by simp [natLE_length, h.signature])
  have c10 : leNat (slice s.bytes 42 44) = s.numberHigh := u16_chunk _ 12 rfl h.numberHigh (by simp [natLE_length, h.signature])
  have c11 : leNat (slice s.bytes 44 48) = s.numberLow := u32_chunk _ 13 rfl h.numberLow (by simp [natLE_length, h.signature])
  have hfl : f.flags = s.flags := by
    show leNat (slice f.data 22 24) = _
    rw [w _ _ (by omega), c6]
  have hb : f.baseFileRecordSegment = s.base := by
    show leNat (slice f.data 32 40) = _
    rw [w _ _ (by omega), c9]
  refine ⟨?_, ?_, ?_, ?_, ?_, hfl, ?_, ?_, ?_, hb, ?_, ?_⟩
  · unfold MFT.FileRecordSegment.isBad
    rw [w _ _ (by omega), c0, show "FILE".toUTF8.toList = MFT.multiSectorHeaderSignatureGood by decide +kernel]
    by_cases hx : s.signature = MFT.multiSectorHeaderSignatureGood
    · rw [hx]; simp
    · simp [hx]
  · show leNat (slice f.data 8 16) = _
    rw [w _ _ (by omega), c2]
  · show leNat (slice f.data 16 18) = _
    rw [w _ _ (by omega), c3]
  · show leNat (slice f.data 18 20) = _
    rw [w _ _ (by omega), c4]
  · show leNat (slice f.data 20 22) = _
    rw [w _ _ (by omega), c5]
  · unfold MFT.FileRecordSegment.isInUse
    rw [hfl]
    have := and_two_pow_pos s.flags 0
    by_cases hx : s.flags.testBit 0 = true
    · rw [hx]; exact decide_eq_true (this.2 hx)
    · rw [show s.flags.testBit 0 = false by simpa using hx]; exact decide_eq_false (fun h => hx (this.1 h))
  · show leNat (slice f.data 24 28) = _
    rw [w _ _ (by omega), c7]
  · show leNat (slice f.data 28 32) = _
    rw [w _ _ (by omega), c8]
  · unfold MFT.FileRecordSegment.isBaseFileRecordSegment
    rw [hb]
    by_cases hx : s.base = 0
    · simp [hx]
    · simp [hx]
  · unfold MFT.FileRecordSegment.masterFileTableNumber
    rw [h2, h3]
    have : u16 s.bytes 4 = s.arrayOffset := c1
    rw [this]
    by_cases hx : s.arrayOffset < 48
    · simp [hx]
    · rw [if_neg (by simpa using hx), if_neg hx]
      show some ((leNat (slice f.data 42 44) <<< 32) ||| leNat (slice f.data 44 48)) = _
      rw [w _ _ (by omega), w _ _ (by omega), c10, c11, ← Nat.shiftLeft_add_eq_or_of_lt h.numberLow, Nat.shiftLeft_eq]

/-! ### Index buffers -/

/-- C120: each field in the header of an index buffer, after its protection was removed. -/
theorem C120_index_buffer (b : Buffer) (h : b.Fits) (d : Bytes) (hd : verifyAndUnprotectIndexSectors b.bytes = .ok (some d)) :
    indexBufferLsn d = .ok b.lsn ∧ indexBufferBlock d = .ok b.block ∧ indexHeaderFirst (indexBufferHeader d) = .ok b.firstEntry ∧
    indexHeaderFree (indexBufferHeader d) = .ok b.firstFree ∧ indexHeaderAvailable (indexBufferHeader d) = .ok b.available ∧
    indexHeaderFlags (indexBufferHeader d) = .ok b.flags := by
  obtain ⟨-, -, -, -, h5, -⟩ := C25_restored b.bytes d hd
  have w : ∀ i j, j ≤ 510 → slice d i j = slice b.bytes i j := fun i j hj => slice_congr fun p _ hp => h5 p (by omega)
  have c1 : slice b.bytes 8 16 = natLE 8 b.lsn := slice_chunk _ 3 rfl (by simp [natLE_length, h.signature]) rfl
  have c2 : slice b.bytes 16 24 = natLE 8 b.block := slice_chunk _ 4 rfl (by simp [natLE_length, h.signature]) rfl
  have c3 : slice b.bytes 24 28 = natLE 4 b.firstEntry := slice_chunk _ 5 rfl (by simp [natLE_length, h.signature]) rfl
  have c4 : slice b.bytes 28 32 = natLE 4 b.firstFree := slice_chunk _ 6 rfl (by simp [natLE_length, h.signature]) rfl
  have c5 : slice b.bytes 32 36 = natLE 4 b.available := slice_chunk _ 7 rfl (by simp [natLE_length, h.signature]) rfl
  have c6 : slice b.bytes 36 37 = natLE 1 b.flags := slice_chunk _ 8 rfl (by simp [natLE_length, h.signature]) rfl
  unfold indexBufferLsn indexBufferBlock indexHeaderFirst indexHeaderFree indexHeaderAvailable indexHeaderFlags indexBufferHeader
  rw [slice_slice _ _ _ _ _ (by omega), slice_slice _ _ _ _ _ (by omega), slice_slice _ _ _ _ _ (by omega), slice_slice _ _ _ _ _ (by omega),
    w _ _ (by omega), w _ _ (by omega), w _ _ (by omega), w _ _ (by omega), w _ _ (by omega), w _ _ (by omega), c1, c2, c3, c4, c5, c6]
  exact ⟨unpack_natLE (by simpa using h.lsn), unpack_natLE (by simpa using h.block), unpack_natLE (by simpa using h.firstEntry),
    unpack_natLE (by simpa using h.firstFree), unpack_natLE (by simpa using h.available), unpack_natLE (by simpa using h.flags)⟩

/-! ### The master boot record, and the media type of exFAT -/

/-- C120: the master boot record: it is refused exactly when its signature is another one. -/
theorem C120_mbr (m : Mbr) (h : m.Fits) (rest : Bytes) (sectorSize : Nat) (o : PartitionTable.MBR)
    (ho : PartitionTable.MBR.init (m.bytes ++ rest) sectorSize = .ok o) :
    o.readMbr = if m.signature = 0xAA55 then .ok (decide (m.code[0]? ≠ some 0 ∧ m.code[1]? ≠ some 0), m.diskSignature) else .error .ValueError := by
  have hv : o.volume = m.bytes ++ rest := by
    unfold PartitionTable.MBR.init at ho
    split at ho
    · cases ho
    split at ho
    · cases ho
    cases ho; rfl
  have hl : m.bytes.length = 512 := by
    rw [Mbr.bytes, List.length_flatten]
    simp [natLE_length, h.code, h.gap, h.table]
  have e0 : slice o.volume 0 512 = m.bytes := by
    rw [hv, slice_append_left _ _ _ _ (by omega), slice_all (by omega)]
  have e1 : u16 m.bytes 510 = m.signature := u16_chunk _ 4 rfl h.signature (by simp [natLE_length, h.code, h.gap, h.table])
  have e2 : u32 m.bytes 440 = m.diskSignature := u32_chunk _ 1 rfl h.diskSignature (by simp [h.code])
  have e3 : slice m.bytes 0 440 = m.code := slice_chunk _ 0 rfl rfl (by rw [h.code])
  have e4 : ∀ i, i < 440 → ∃ x, m.code[i]? = some x ∧ u8 m.bytes i = x.toNat := by
    intro i hi
    obtain ⟨x, hx⟩ : ∃ x, m.code[i]? = some x := ⟨_, List.getElem?_eq_getElem (by rw [h.code]; exact hi)⟩
    refine ⟨x, hx, ?_⟩
    rw [← e3, slice_getElem?, if_pos (by omega), Nat.zero_add] at hx
    rw [u8_eq_of_lt (by omega)]
    rw [List.getElem?_eq_getElem (by omega)] at hx
    injection hx with hx
    rw [hx]
  obtain ⟨x, x1, x2⟩ := e4 0 (by omega)
  obtain ⟨y, y1, y2⟩ := e4 1 (by omega)
  unfold PartitionTable.MBR.readMbr
  rw [e0]
  dsimp only
  rw [hl, e1, e2, x1, x2, y1, y2, if_neg (fun h => h rfl)]
  by_cases hs : m.signature = 0xAA55
  · rw [if_neg (fun h => h hs), if_pos hs]
    congr 2
    have hz : ∀ z : UInt8, z.toNat ≠ 0 ↔ some z ≠ some (0 : UInt8) := fun z => by
      rw [ne_eq, ne_eq, Option.some.injEq, ← UInt8.toNat_inj]; rfl
    rw [decide_eq_decide, hz, hz]
  · rw [if_pos hs, if_neg hs]

/-- C120: the media type of an exFAT volume is the lowest byte of the first entry of its table. -/
theorem C120_exfat_media (before : Bytes) (media : Nat) (hm : media < 2 ^ 8) (ones : Bytes) (ho : ones.length = 3) (after : Bytes) (size last : Nat)
    (t : ExFAT.Table) (hb : before.length + 4 < 2 ^ 63) (ht : ExFAT.openTable (before ++ (natLE 1 media ++ (ones ++ after))) before.length size last = .ok t) :
    t.mediaType = .ok media := by
  unfold ExFAT.openTable at ht
  split at ht
  · cases ht
  split at ht
  · cases ht
  cases ht
  rename_i h1 h2
  unfold ExFAT.Table.mediaType ExFAT.Table.getElement
  dsimp only
  rw [if_neg (by omega), Nat.zero_mul, Nat.add_zero, seekRead_ok (by omega) (by omega),
    slice_append_right _ _ _ _ (by omega), Nat.sub_self, Nat.add_sub_cancel_left]
  have hlen : (slice (natLE 1 media ++ (ones ++ after)) 0 4).length = 4 := by
    rw [slice_length]; simp [natLE_length, ho]; omega
  dsimp only
  rw [if_neg (by rw [hlen]; exact fun h => h rfl)]
  have e : slice (natLE 1 media ++ (ones ++ after)) 0 4 = natLE 1 media ++ ones := by
    rw [← List.append_assoc, slice_append_left _ _ _ _ (by simp [natLE_length, ho]), slice_all (by simp [natLE_length, ho])]
  rw [e]
  show Except.ok (leNat (natLE 1 media ++ ones) &&& 0xFF) = _
  rw [show (0xFF : Nat) = 2 ^ 8 - 1 from rfl, Nat.and_two_pow_sub_one_eq_mod]
  show Except.ok (leNat (UInt8.ofNat (media % 256) :: ones) % 2 ^ 8) = _
  simp only [leNat]
  congr 1
  have : (UInt8.ofNat (media % 256)).toNat = media := by
    simp; omega
  omega

/-! ### Examples -/

/-- The boot sector of a volume with sectors of 512 bytes, clusters of 4096 bytes and records of 1024 bytes. -/
def bootExample : Boot :=
  ⟨[0xEB, 0x52, 0x90], 512, 8, List.replicate 26 0, 204799, 4, 8533, 246, [0, 0, 0], 1, [0, 0, 0], 0x1122334455667788, 0,
    List.replicate 426 0xF4, 0xAA55⟩

theorem bootExample_fits : bootExample.Fits := by
  refine ⟨rfl, ?_, ?_, ?_, ?_, ?_, ?_, ?_, rfl, ?_, rfl, ?_, ?_, ?_, ?_⟩ <;> decide +kernel

example : BootSector.fileRecordSegmentSize bootExample.bytes = .ok 1024 ∧ BootSector.indexRecordSize bootExample.bytes = .ok 4096 ∧
    BootSector.serialNumber bootExample.bytes = 0x1122334455667788 ∧ BootSector.isBootCodePresent bootExample.bytes = true := by
  obtain ⟨h1, h2⟩ := C120_boot_sizes bootExample bootExample_fits
  obtain ⟨-, -, -, -, -, -, h3, h4⟩ := C120_boot_sector bootExample bootExample_fits
  exact ⟨h1 _ rfl, h2 _ rfl, h3, h4.trans (by decide)⟩

/-- A file record segment in use that is not a base segment, with its number in the header. -/
def segmentExample : Segment :=
  ⟨[0x46, 0x49, 0x4C, 0x45], 48, 3, 0x10203040, 7, 2, 56, 1, 96, 1024, 0x0005000000000020, 4, 1, 33,
    [1, 0] ++ zeros 460 ++ [1, 0] ++ zeros 510 ++ [1, 0]⟩

theorem segmentExample_fits : segmentExample.Fits := by
  refine ⟨rfl, ?_, ?_, ?_, ?_, ?_, ?_, ?_, ?_, ?_, ?_, ?_, ?_⟩ <;> decide +kernel

example : ∃ f, MFT.FileRecordSegment.init segmentExample.bytes true none = .ok f ∧ f.masterFileTableNumber = some (2 ^ 32 + 33) ∧
    f.logfileSequenceNumber = 0x10203040 ∧ f.referenceCount = 2 ∧ f.isBad = false := by
  obtain ⟨f, hf⟩ : ∃ f, MFT.FileRecordSegment.init segmentExample.bytes true none = .ok f := by
    cases h : MFT.FileRecordSegment.init segmentExample.bytes true none with
    | ok f => exact ⟨f, rfl⟩
    | error e =>
      have : (match MFT.FileRecordSegment.init segmentExample.bytes true none with | .ok _ => true | .error _ => false) = true := by decide +kernel
      rw [h] at this
      cases this
  obtain ⟨h1, h2, -, h4, -, -, -, -, -, -, -, h12⟩ := C120_segment segmentExample segmentExample_fits true none f hf
  exact ⟨f, hf, h12, h2, h4, h1.trans (by decide +kernel)⟩

/-- An index buffer. -/
def bufferExample : Buffer :=
  ⟨[0x49, 0x4E, 0x44, 0x58], 40, 3, 0x50607080, 16, 40, 48, 1000, 1, zeros 3 ++ [1, 0] ++ zeros 468 ++ [1, 0] ++ zeros 510 ++ [1, 0]⟩

example : ∃ d, verifyAndUnprotectIndexSectors bufferExample.bytes = .ok (some d) ∧ indexBufferLsn d = .ok 0x50607080 ∧ indexBufferBlock d = .ok 16 := by
  obtain ⟨d, hd⟩ : ∃ d, verifyAndUnprotectIndexSectors bufferExample.bytes = .ok (some d) := by
    cases h : verifyAndUnprotectIndexSectors bufferExample.bytes with
    | ok r =>
      cases r with
      | some d => exact ⟨d, rfl⟩
      | none =>
        have : verifyAndUnprotectIndexSectors bufferExample.bytes ≠ .ok none := by decide +kernel
        exact absurd h this
    | error e =>
      obtain ⟨r, hr⟩ := C25_total bufferExample.bytes
      rw [h] at hr
      cases hr
  obtain ⟨h1, h2, -⟩ := C120_index_buffer bufferExample (by
    refine ⟨rfl, ?_, ?_, ?_, ?_, ?_, ?_⟩ <;> decide +kernel) d hd
  exact ⟨d, hd, h1, h2⟩

/-- A master boot record. -/
def mbrExample : Mbr := ⟨0x33 :: 0xC0 :: zeros 438, 0xCAFEF00D, [0, 0], zeros 64, 0xAA55⟩

example : PartitionTable.MBR.readMbr ⟨mbrExample.bytes ++ zeros 512, 512⟩ = .ok (true, 0xCAFEF00D) :=
  C120_mbr mbrExample (by refine ⟨?_, ?_, rfl, ?_, ?_⟩ <;> decide +kernel) (zeros 512) 512 _ (by
    unfold PartitionTable.MBR.init
    rw [if_neg (by decide), if_neg]
    rw [List.length_append, zeros_length, show mbrExample.bytes.length = 512 by decide +kernel]
    decide)

example : ExFAT.Table.mediaType ⟨zeros 512 ++ (natLE 1 0xF8 ++ ([0xFF, 0xFF, 0xFF] ++ zeros 508)), 512, 512, 100⟩ = .ok 0xF8 :=
  C120_exfat_media (zeros 512) 0xF8 (by decide) [0xFF, 0xFF, 0xFF] rfl (zeros 508) 512 100 _ (by rw [zeros_length]; decide) (by
    rw [zeros_length]; rfl)

end Verif.Props.Headers
