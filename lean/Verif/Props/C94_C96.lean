/-
Properties C94-C96: the fields of attributes, the partial `$STANDARD_INFORMATION` of a log record, and the slack space of an
index (dfir_ntfs/Attributes.py:240-1015).
-/
import Verif.Model.AttributeFields
import Verif.Spec.AttributeFields
import Verif.Proof.Fields
import Verif.Props.C25
import Verif.Basic.Bits
namespace Verif.Props
open Verif.Attributes Verif.Spec Verif.Proof.Fields

/-! ### C94 -/

/-- C94: the fields of `$STANDARD_INFORMATION`, whatever follows it. -/
theorem C94_standard_information (s : Fields.StandardInformation) (h : s.Fits) (rest : Bytes) :
    let v := s.encode ++ rest
    siCtime v = .ok (decodeFiletime s.created) ∧ siMtime v = .ok (decodeFiletime s.modified) ∧
    siEtime v = .ok (decodeFiletime s.entryModified) ∧ siAtime v = .ok (decodeFiletime s.accessed) ∧
    siFileAttributes v = .ok s.fileAttributes ∧ siMaximumVersions v = .ok s.maximumVersions ∧
    siVersionNumber v = .ok s.versionNumber ∧ siExtraFlags v = .ok s.versionNumber ∧ siClassId v = .ok s.classId := by
  obtain ⟨h1, h2, h3, h4, h5, h6, h7, h8⟩ := h
  unfold siCtime siMtime siEtime siAtime siFileAttributes siMaximumVersions siVersionNumber siExtraFlags siClassId timeField
    Fields.StandardInformation.encode
  simp [slice_skip, slice_here, unpack_natLE, h1, h2, h3, h4, h5, h6, h7, h8]

/-- C94: the bits of the extra flags. -/
theorem C94_extra_flags (s : Fields.StandardInformation) (h : s.Fits) (rest : Bytes) :
    let v := s.encode ++ rest
    siCaseSensitive v = .ok (s.versionNumber.testBit 0) ∧
    siKnownFolder v = .ok (s.versionNumber / 2 % 8) ∧
    siTrustLevel v = .ok (s.versionNumber / 16 % 4) ∧
    siStorageReserveId v = .ok (s.versionNumber / 256 % 16) := by
  have hx := (C94_standard_information s h rest).2.2.2.2.2.2.2.1
  have e1 : ∀ n : Nat, (decide (n &&& 1 > 0)) = n.testBit 0 := by
    intro n
    rw [Nat.and_one_is_mod, Nat.testBit_zero]
    rcases Nat.mod_two_eq_zero_or_one n with h | h <;> simp [h]
  have e2 : ∀ n : Nat, (n &&& 0xE) >>> 1 = n / 2 % 8 := by
    intro n
    rw [Nat.shiftRight_and_distrib, Nat.shiftRight_eq_div_pow]
    exact Nat.and_two_pow_sub_one_eq_mod (n / 2) 3
  have e3 : ∀ n : Nat, (n &&& 0x30) >>> 4 = n / 16 % 4 := by
    intro n
    rw [Nat.shiftRight_and_distrib, Nat.shiftRight_eq_div_pow]
    exact Nat.and_two_pow_sub_one_eq_mod (n / 16) 2
  have e4 : ∀ n : Nat, (n >>> 8) &&& 0xF = n / 256 % 16 := by
    intro n
    rw [Nat.shiftRight_eq_div_pow]
    exact Nat.and_two_pow_sub_one_eq_mod (n / 256) 4
  refine ⟨?_, ?_, ?_, ?_⟩
  · unfold siCaseSensitive; rw [hx]; simp only [Except.map, e1]
  · unfold siKnownFolder; rw [hx]; simp only [Except.map, e2]
  · unfold siTrustLevel; rw [hx]; simp only [Except.map, e3]
  · unfold siStorageReserveId; rw [hx]; simp only [Except.map, e4]

/-- C94: the fields that NTFS 3.0 added, and that they are absent from an older value. -/
theorem C94_standard_information_extension (s : Fields.StandardInformation) (x : Fields.StandardInformationExtension) (h : x.Fits) (rest : Bytes) :
    let v := s.encode ++ (x.encode ++ rest)
    siOwnerId v = some x.ownerId ∧ siSecurityId v = some x.securityId ∧ siQuotaCharged v = some x.quotaCharged ∧ siUsn v = some x.usn ∧
    siOwnerId s.encode = none ∧ siSecurityId s.encode = none ∧ siQuotaCharged s.encode = none ∧ siUsn s.encode = none := by
  obtain ⟨h1, h2, h3, h4⟩ := h
  have hl : s.encode.length = 48 := by unfold Fields.StandardInformation.encode; simp [natLE_length]
  have hskip : ∀ b i j, 48 ≤ i → slice (s.encode ++ b) i j = slice b (i - 48) (j - 48) := by
    intro b i j hi; rw [slice_append_right _ _ _ _ (by omega), hl]
  have hnone : ∀ n i, 48 ≤ i → 0 < n → optionalField n s.encode i = none := by
    intro n i hi hn
    unfold optionalField
    rw [if_neg]
    rw [slice_length]; omega
  unfold siOwnerId siSecurityId siQuotaCharged siUsn
  refine ⟨?_, ?_, ?_, ?_, hnone _ _ (by omega) (by omega), hnone _ _ (by omega) (by omega), hnone _ _ (by omega) (by omega),
    hnone _ _ (by omega) (by omega)⟩ <;>
  · unfold optionalField
    rw [hskip _ _ _ (by omega)]
    unfold Fields.StandardInformationExtension.encode
    simp [slice_skip, slice_here, natLE_length, leNat_natLE_of_lt, h1, h2, h3, h4]

theorem signedField_here {v : Int} {pre rest : Bytes} {i : Nat} (hp : pre.length = i) (h1 : -2 ^ 63 ≤ v) (h2 : v < 2 ^ 63) :
    signedField (pre ++ (intLE 8 v ++ rest)) i = .ok v := by
  have e : slice (pre ++ (intLE 8 v ++ rest)) i (i + 8) = intLE 8 v := by
    rw [slice_append_right _ _ _ _ (by omega), hp, Nat.sub_self, Nat.add_sub_cancel_left]
    exact slice_here_int
  unfold signedField
  rw [e, if_pos (intLE_length _ _), leInt_intLE (by omega) (by omega)]

/-- C94: the fields of `DUPLICATED_INFORMATION`. -/
theorem C94_duplicated_information (d : Fields.DuplicatedInformation) (h : d.Fits) (rest : Bytes) :
    let v := d.encode ++ rest
    diCtime v = .ok (decodeFiletime d.created) ∧ diMtime v = .ok (decodeFiletime d.modified) ∧
    diEtime v = .ok (decodeFiletime d.entryModified) ∧ diAtime v = .ok (decodeFiletime d.accessed) ∧
    diAllocatedLength v = .ok d.allocatedLength ∧ diFileSize v = .ok d.fileSize ∧ diFileAttributes v = .ok d.fileAttributes ∧
    diPackedEaSize v = .ok d.packedEaSize ∧ diUnpackedEaSizeDifference v = .ok d.eaDifference := by
  obtain ⟨h1, h2, h3, h4, ⟨a1, a2⟩, ⟨b1, b2⟩, h5, h6, h7⟩ := h
  have e1 : diAllocatedLength (d.encode ++ rest) = .ok d.allocatedLength := by
    have := signedField_here (v := d.allocatedLength) (i := 32) (pre := natLE 8 d.created ++ (natLE 8 d.modified ++ (natLE 8 d.entryModified ++ natLE 8 d.accessed)))
      (rest := intLE 8 d.fileSize ++ (natLE 4 d.fileAttributes ++ (natLE 2 d.packedEaSize ++ (natLE 2 d.eaDifference ++ rest)))) (by simp [natLE_length]) a1 a2
    unfold diAllocatedLength Fields.DuplicatedInformation.encode
    simpa [List.append_assoc] using this
  have e2 : diFileSize (d.encode ++ rest) = .ok d.fileSize := by
    have := signedField_here (v := d.fileSize) (i := 40) (pre := natLE 8 d.created ++ (natLE 8 d.modified ++ (natLE 8 d.entryModified ++ (natLE 8 d.accessed ++ intLE 8 d.allocatedLength))))
      (rest := natLE 4 d.fileAttributes ++ (natLE 2 d.packedEaSize ++ (natLE 2 d.eaDifference ++ rest))) (by simp [natLE_length, intLE_length]) b1 b2
    unfold diFileSize Fields.DuplicatedInformation.encode
    simpa [List.append_assoc] using this
  refine ⟨?_, ?_, ?_, ?_, e1, e2, ?_, ?_, ?_⟩ <;>
  · first
      | unfold diCtime timeField
      | unfold diMtime timeField
      | unfold diEtime timeField
      | unfold diAtime timeField
      | unfold diFileAttributes
      | unfold diPackedEaSize
      | unfold diUnpackedEaSizeDifference
    unfold Fields.DuplicatedInformation.encode
    simp [slice_skip, slice_here, slice_skip_int, unpack_natLE, h1, h2, h3, h4, h5, h6, h7]

theorem duplicatedInformation_length (d : Fields.DuplicatedInformation) : d.encode.length = 56 := by
  unfold Fields.DuplicatedInformation.encode; simp [natLE_length, intLE_length]

/-- C94: the fields of `$FILE_NAME`; the duplicated information is that of `C94_duplicated_information`. -/
theorem C94_file_name (f : Fields.FileName) (h : f.Fits) (rest : Bytes) :
    let v := f.encode ++ rest
    fileNameParent v = .ok f.parent ∧ fileNameFlags v = .ok f.flags ∧ fileNameName v = .ok (utf16Decode f.name) ∧
    ∃ more, fileNameInformation v = f.information.encode ++ more := by
  obtain ⟨h1, h2, h3, h4, h5⟩ := h
  have hl := duplicatedInformation_length f.information
  have hskip : ∀ b i j, 56 ≤ i → slice (f.information.encode ++ b) i j = slice b (i - 56) (j - 56) := by
    intro b i j hi; rw [slice_append_right _ _ _ _ (by omega), hl]
  have hname : ∀ b, slice (f.name ++ b) 0 (2 * (f.name.length / 2)) = f.name := by
    intro b
    rw [slice_append_left _ _ _ _ (by omega), slice_all (by omega)]
  refine ⟨?_, ?_, ?_, ?_⟩
  · unfold fileNameParent Fields.FileName.encode
    simp [slice_here, unpack_natLE, h1]
  · unfold fileNameFlags Fields.FileName.encode
    simp [slice_skip, slice_here, hskip, unpack_natLE, h3]
  · unfold fileNameName Fields.FileName.encode
    rw [List.append_assoc, List.append_assoc, List.append_assoc, List.append_assoc]
    have e1 : ∀ c : Bytes, slice (natLE 8 f.parent ++ (f.information.encode ++ (natLE 1 (f.name.length / 2) ++ c))) 64 65 = natLE 1 (f.name.length / 2) := by
      intro c
      rw [slice_skip (by omega), hskip _ _ _ (by omega)]; exact slice_here
    rw [e1, unpack_natLE (by omega)]
    dsimp only
    rw [slice_skip (by omega), hskip _ _ _ (by omega), slice_skip (by omega), slice_skip (by omega)]
    rw [show 66 - 8 - 56 - 1 - 1 = 0 by omega, show 66 + 2 * (f.name.length / 2) - 8 - 56 - 1 - 1 = 2 * (f.name.length / 2) by omega, hname]
  · unfold fileNameInformation Fields.FileName.encode
    refine ⟨natLE 1 (f.name.length / 2) ++ (natLE 1 f.flags ++ (f.name ++ rest)), ?_⟩
    rw [List.append_assoc, List.drop_append_of_le_length (by rw [natLE_length]; omega), List.drop_of_length_le (by rw [natLE_length]; omega)]
    simp

/-! GUIDs -/

theorem shift_or {a b c : Nat} (hb : b < 2 ^ 16) (hc : c < 2 ^ 32) : a <<< 48 ||| b <<< 32 ||| c = a * 2 ^ 48 + b * 2 ^ 32 + c := by
  rw [← Nat.shiftLeft_add_eq_or_of_lt (i := 48) (by rw [Nat.shiftLeft_eq]; omega)]
  have : a <<< 48 + b <<< 32 = (a * 2 ^ 16 + b) <<< 32 := by simp only [Nat.shiftLeft_eq]; omega
  rw [this, ← Nat.shiftLeft_add_eq_or_of_lt hc]
  simp only [Nat.shiftLeft_eq]; omega

/-- C94: `$OBJECT_ID`: the GUID, the time in it when it is one of version 1, and the rest. -/
theorem C94_object_id (time clock : Nat) (node rest : Bytes) (ht : time < 2 ^ 60) (hc : clock < 2 ^ 6) (hn : node.length = 7) :
    let v := Fields.guidV1 time clock node ++ rest
    objectId v = some (Fields.guidV1 time clock node) ∧ objectIdTimestamp v = decodeGuidTime time ∧ objectIdExtra v = rest := by
  have hl : (Fields.guidV1 time clock node).length = 16 := by
    unfold Fields.guidV1; simp only [List.length_append, natLE_length, hn]
  have e0 : objectId (Fields.guidV1 time clock node ++ rest) = some (Fields.guidV1 time clock node) := by
    unfold objectId
    rw [slice_append_left _ _ _ _ (by omega), slice_all (by omega), if_neg (by omega)]
  refine ⟨e0, ?_, ?_⟩
  · unfold objectIdTimestamp
    rw [e0]
    dsimp only
    have e8 : u8 (Fields.guidV1 time clock node) 8 = 2 ^ 7 + clock := by
      unfold u8 Fields.guidV1
      rw [slice_skip (by omega), slice_skip (by omega), slice_skip (by omega)]
      exact (congrArg leNat slice_here).trans (leNat_natLE_of_lt (by omega))
    have e6 : u16 (Fields.guidV1 time clock node) 6 = 2 ^ 12 + time / 2 ^ 48 := by
      unfold u16 Fields.guidV1
      rw [slice_skip (by omega), slice_skip (by omega)]
      exact (congrArg leNat slice_here).trans (leNat_natLE_of_lt (by omega))
    have e4 : u16 (Fields.guidV1 time clock node) 4 = time / 2 ^ 32 % 2 ^ 16 := by
      unfold u16 Fields.guidV1
      rw [slice_skip (by omega)]
      exact (congrArg leNat slice_here).trans (leNat_natLE_of_lt (by omega))
    have e1 : u32 (Fields.guidV1 time clock node) 0 = time % 2 ^ 32 := by
      unfold u32 Fields.guidV1
      exact (congrArg leNat slice_here).trans (leNat_natLE_of_lt (by omega))
    have hv : guidVersion (Fields.guidV1 time clock node) = some 1 := by
      unfold guidVersion
      rw [e8, e6]
      have b1 : ∀ c, c < 64 → (2 ^ 7 + c) &&& 0x80 ≠ 0 ∧ (2 ^ 7 + c) &&& 0x40 = 0 := by decide +kernel
      rw [if_neg (b1 clock hc).1, if_pos (b1 clock hc).2, Nat.shiftRight_eq_div_pow]
      congr 1; omega
    rw [if_pos hv]
    congr 1
    unfold guidTime
    rw [e6, e4, e1]
    have m : (2 ^ 12 + time / 2 ^ 48) &&& 0xFFF = time / 2 ^ 48 := by
      rw [show (0xFFF : Nat) = 2 ^ 12 - 1 by decide, Nat.and_two_pow_sub_one_eq_mod]; omega
    rw [m, shift_or (by omega) (by omega)]
    omega
  · unfold objectIdExtra
    rw [List.drop_append_of_le_length (by omega), List.drop_of_length_le (by omega)]; rfl

/-- C94: a GUID that is not of version 1 (or not of the variant of RFC 4122) gives no timestamp, and so does a short value. -/
theorem C94_object_id_other (v : Bytes) (h : objectIdTimestamp v ≠ none) : 16 ≤ v.length ∧ u8 v 7 / 16 = 1 ∧ u8 v 8 / 64 = 2 := by
  unfold objectIdTimestamp objectId at h
  by_cases hl : (slice v 0 16).length ≠ 16
  · rw [if_pos hl] at h; exact absurd rfl h
  rw [if_neg hl] at h
  rw [slice_length] at hl
  dsimp only at h
  by_cases hv : guidVersion (slice v 0 16) = some 1
  · refine ⟨by omega, ?_⟩
    unfold guidVersion at hv
    have e8 : u8 (slice v 0 16) 8 = u8 v 8 := by unfold u8; rw [slice_slice _ _ _ _ _ (by omega)]
    have e6 : u16 (slice v 0 16) 6 = u16 v 6 := by unfold u16; rw [slice_slice _ _ _ _ _ (by omega)]
    rw [e8, e6] at hv
    have b : ∀ n, n < 256 → n &&& 0x80 ≠ 0 → n &&& 0x40 = 0 → n / 64 = 2 := by decide +kernel
    have hlt : u8 v 8 < 256 := by
      have := leNat_lt (slice v 8 9)
      rw [slice_length_of_le (by omega)] at this; exact this
    have e67 : u16 v 6 = u8 v 6 + 256 * u8 v 7 := by
      unfold u16 u8
      rw [slice_two_of_lt (by omega : 6 + 1 < v.length)]
      have a1 : slice v 6 7 = [v[6]] := by
        rw [slice, List.drop_eq_getElem_cons (by omega)]; rfl
      have a2 : slice v 7 8 = [v[7]] := by
        rw [slice, List.drop_eq_getElem_cons (by omega)]; rfl
      rw [a1, a2]; simp [leNat]
    have h6 : u8 v 6 < 256 := by
      have := leNat_lt (slice v 6 7)
      rw [slice_length_of_le (by omega)] at this; exact this
    by_cases c1 : u8 v 8 &&& 0x80 = 0
    · rw [if_pos c1] at hv; cases hv
    rw [if_neg c1] at hv
    by_cases c2 : u8 v 8 &&& 0x40 = 0
    · rw [if_pos c2, Nat.shiftRight_eq_div_pow] at hv
      injection hv with hv
      exact ⟨by omega, b _ hlt c1 c2⟩
    · rw [if_neg c2] at hv; cases hv
  · rw [if_neg hv] at h; exact absurd rfl h

/-! Indexes -/

/-- C94: an entry of an index. -/
theorem C94_index_entry (e : Fields.IndexEntry) (h : e.Fits) (pos : Nat) (rest : Bytes) :
    let x : IndexEntry := ⟨pos, e.encode ++ rest⟩
    x.fileReference = .ok e.fileReference ∧ x.length = .ok e.length ∧ x.attribute = .ok (some e.stored) ∧ x.vcn = .ok e.subnode := by
  obtain ⟨h1, h2, h3, h4⟩ := h
  have hal : e.stored.length < 2 ^ 16 := by unfold Fields.IndexEntry.length at h2; omega
  have hfl : (if e.subnode.isSome then 1 else 0) < 256 ^ 2 := by split <;> decide
  have a1 : IndexEntry.length ⟨pos, e.encode ++ rest⟩ = .ok e.length := by
    unfold IndexEntry.length Fields.IndexEntry.encode
    simp [slice_skip, slice_here, unpack_natLE, h2]
  have a2 : IndexEntry.attributeLength ⟨pos, e.encode ++ rest⟩ = .ok e.stored.length := by
    unfold IndexEntry.attributeLength Fields.IndexEntry.encode
    simp [slice_skip, slice_here, unpack_natLE, hal]
  have a3 : IndexEntry.flags ⟨pos, e.encode ++ rest⟩ = .ok (if e.subnode.isSome then 1 else 0) := by
    unfold IndexEntry.flags Fields.IndexEntry.encode
    dsimp only
    rw [List.append_assoc, List.append_assoc, List.append_assoc, List.append_assoc, slice_skip (by omega), slice_skip (by omega), slice_skip (by omega)]
    exact (congrArg _ slice_here).trans (unpack_natLE hfl)
  refine ⟨?_, a1, ?_, ?_⟩
  · unfold IndexEntry.fileReference Fields.IndexEntry.encode
    simp [slice_here, unpack_natLE, h1]
  · unfold IndexEntry.attribute
    rw [a2, a3]
    dsimp only
    rw [if_pos ⟨by split <;> rfl, h3⟩]
    congr 2
    unfold Fields.IndexEntry.encode
    simp only [List.append_assoc]
    rw [slice_skip (by omega), slice_skip (by omega), slice_skip (by omega), slice_skip (by omega), slice_skip (by omega),
      slice_append_left _ _ _ _ (by omega), slice_all (by omega)]
  · unfold IndexEntry.vcn
    rw [a1, a3]
    dsimp only
    cases hs : e.subnode with
    | none => rfl
    | some v =>
      have hlen : e.length = 16 + e.stored.length + e.padding.length + 8 := by unfold Fields.IndexEntry.length; rw [hs]; rfl
      rw [if_pos ⟨by show (1 &&& 1 : Nat) > 0; decide, by omega⟩]
      unfold Fields.IndexEntry.encode
      rw [hs]
      simp only [List.append_assoc]
      rw [slice_skip (by omega), slice_skip (by omega), slice_skip (by omega), slice_skip (by omega), slice_skip (by omega),
        slice_append_right _ _ _ _ (by omega), slice_append_right _ _ _ _ (by omega)]
      rw [show e.length - 8 - 8 - 2 - 2 - 2 - 2 - e.stored.length - e.padding.length = 0 by omega,
        show e.length - 8 - 2 - 2 - 2 - 2 - e.stored.length - e.padding.length = 8 by omega, slice_here, unpack_natLE (h4 v hs)]
      rfl

/-- C94: `$INDEX_ROOT` and the header of its node. -/
theorem C94_index_root (r : Fields.IndexRoot) (h : r.Fits) (rest : Bytes) :
    let v := r.encode ++ rest
    indexRootType v = .ok r.attributeType ∧ indexRootCollation v = .ok r.collation ∧ indexRootBytes v = .ok r.bytesPerBuffer ∧
    indexRootBlocks v = .ok r.blocksPerBuffer ∧ indexHeaderFirst (indexRootHeader v) = .ok r.firstEntry ∧
    indexHeaderFree (indexRootHeader v) = .ok r.firstFree ∧ indexHeaderAvailable (indexRootHeader v) = .ok r.available ∧
    indexHeaderFlags (indexRootHeader v) = .ok r.flags := by
  obtain ⟨h1, h2, h3, h4, h5, h6, h7, h8⟩ := h
  unfold indexRootType indexRootCollation indexRootBytes indexRootBlocks indexHeaderFirst indexHeaderFree indexHeaderAvailable indexHeaderFlags
    indexRootHeader Fields.IndexRoot.encode
  simp [slice_slice, slice_skip, slice_here, unpack_natLE, h1, h2, h3, h4, h5, h6, h7, h8]

/-! Other attributes -/

/-- C94: a reparse point: its tag, its GUID (when the caller has a `bytes` object), and its data. -/
theorem C94_reparse_point (r : Fields.ReparsePoint) (h : r.Fits) (rest : Bytes) :
    let v := r.encode ++ rest
    reparseTag v = .ok r.tag ∧ reparseIsMicrosoft v = .ok (r.tag.testBit 31) ∧ reparseDataLength v = .ok r.data.length ∧
    reparseGuid false v = .ok r.guid ∧ reparseBuffer v = .ok r.data := by
  obtain ⟨h1, h2, h3, h4⟩ := h
  have a1 : reparseTag (r.encode ++ rest) = .ok r.tag := by
    unfold reparseTag Fields.ReparsePoint.encode
    simp [slice_here, unpack_natLE, h1]
  have a2 : reparseDataLength (r.encode ++ rest) = .ok r.data.length := by
    unfold reparseDataLength Fields.ReparsePoint.encode
    simp [slice_skip, slice_here, unpack_natLE, h2]
  have a3 : reparseIsMicrosoft (r.encode ++ rest) = .ok (r.tag.testBit 31) := by
    unfold reparseIsMicrosoft
    rw [a1]
    simp only [Except.map]
    congr 1
    have := and_two_pow_pos r.tag 31
    rw [show (0x80000000 : Nat) = 2 ^ 31 by decide]
    by_cases hb : r.tag.testBit 31 = true
    · rw [hb]; exact decide_eq_true (this.2 hb)
    · rw [show r.tag.testBit 31 = false by simpa using hb]; exact decide_eq_false (fun h => hb (this.1 h))
  refine ⟨a1, a3, a2, ?_, ?_⟩
  · unfold reparseGuid
    rw [a3]
    cases hg : r.guid with
    | none => rw [h3.1 hg]
    | some g =>
      have hb : r.tag.testBit 31 = false := by
        cases hb : r.tag.testBit 31 with
        | false => rfl
        | true => rw [h3.2 hb] at hg; cases hg
      have hgl := h4 g hg
      have e : slice (r.encode ++ rest) 8 24 = g := by
        unfold Fields.ReparsePoint.encode
        rw [hg]
        simp only [List.append_assoc, Option.getD_some]
        rw [slice_skip (by omega), slice_skip (by omega), slice_skip (by omega), slice_append_left _ _ _ _ (by omega), slice_all (by omega)]
      rw [hb]
      dsimp only
      rw [e, if_neg (by omega)]; rfl
  · unfold reparseBuffer
    rw [a3, a2]
    cases hg : r.guid with
    | none =>
      rw [h3.1 hg]
      simp only [Except.map]
      congr 1
      unfold Fields.ReparsePoint.encode
      rw [hg]
      simp only [List.append_assoc, Option.getD_none, List.nil_append]
      rw [slice_skip (by omega), slice_skip (by omega), slice_skip (by omega), slice_append_left _ _ _ _ (by omega), slice_all (by omega)]
    | some g =>
      have hb : r.tag.testBit 31 = false := by
        cases hb : r.tag.testBit 31 with
        | false => rfl
        | true => rw [h3.2 hb] at hg; cases hg
      have hgl := h4 g hg
      rw [hb]
      simp only [Except.map]
      congr 1
      unfold Fields.ReparsePoint.encode
      rw [hg]
      simp only [List.append_assoc, Option.getD_some]
      rw [slice_skip (by omega), slice_skip (by omega), slice_skip (by omega), slice_append_right _ _ _ _ (by omega), hgl,
        slice_append_left _ _ _ _ (by omega)]
      rw [show 24 - 4 - 2 - 2 - 16 = 0 by omega]
      exact slice_all (by omega)

/-- What C94 would like to say is false for the GUID of a reparse point that a file record holds: its value is a `bytearray`, for which
`AssertionError` is raised, however valid the reparse point is. -/
theorem C94_reparse_guid_of_record (r : Fields.ReparsePoint) (h : r.Fits) (hm : r.tag.testBit 31 = false) (rest : Bytes) :
    reparseGuid true (r.encode ++ rest) = .error .AssertionError := by
  obtain ⟨-, -, hd, hg, -⟩ := C94_reparse_point r h rest
  unfold reparseGuid at hg ⊢
  have hm' := (C94_reparse_point r h rest).2.1
  rw [hm', hm] at hg ⊢
  dsimp only at hg ⊢
  by_cases hl : (slice (r.encode ++ rest) 8 24).length ≠ 16
  · rw [if_pos hl] at hg; cases hg
  · rw [if_neg hl]; rfl

/-- C94: the extended attribute information. -/
theorem C94_ea_information (packed need unpacked : Nat) (h1 : packed < 2 ^ 16) (h2 : need < 2 ^ 16) (h3 : unpacked < 2 ^ 32) (rest : Bytes) :
    let v := Fields.eaInformation packed need unpacked ++ rest
    eaPackedSize v = .ok packed ∧ eaNeedCount v = .ok need ∧ eaUnpackedSize v = .ok unpacked := by
  unfold eaPackedSize eaNeedCount eaUnpackedSize Fields.eaInformation
  simp [slice_skip, slice_here, unpack_natLE, h1, h2, h3]

/-- C94: the volume information. -/
theorem C94_volume_information (major minor flags : Nat) (h1 : major < 2 ^ 8) (h2 : minor < 2 ^ 8) (h3 : flags < 2 ^ 16) (rest : Bytes) :
    let v := Fields.volumeInformation major minor flags ++ rest
    volumeMajor v = .ok major ∧ volumeMinor v = .ok minor ∧ volumeFlags v = .ok flags := by
  unfold volumeMajor volumeMinor volumeFlags Fields.volumeInformation
  simp [slice_skip_zeros, slice_skip, slice_here, unpack_natLE, h1, h2, h3]

/-- C94: the last compacted size of an attribute list is the number after the signature `DC`, in the first entry of the list, which
has no name and so leaves the place free. -/
theorem C94_last_compacted_size (entry : Bytes) (he : entry.length = 26) (size : Nat) (hs : size < 2 ^ 32) (rest : Bytes) :
    lastCompactedSize (entry ++ ([0x44, 0x43] ++ (natLE 4 size ++ rest))) = .ok (some size) := by
  unfold lastCompactedSize
  have sk : ∀ (b : Bytes) (i j : Nat), 26 ≤ i → slice (entry ++ b) i j = slice b (i - 26) (j - 26) := by
    intro b i j hi; rw [slice_append_right _ _ _ _ (by omega), he]
  rw [sk _ 26 28 (by omega), sk _ 28 32 (by omega)]
  have e1 : slice ([0x44, 0x43] ++ (natLE 4 size ++ rest)) (26 - 26) (28 - 26) = [0x44, 0x43] := rfl
  have e2 : slice ([0x44, 0x43] ++ (natLE 4 size ++ rest)) (28 - 26) (32 - 26) = natLE 4 size := by
    rw [slice_append_right _ _ _ _ (by decide)]; exact slice_here
  rw [e1, e2, if_neg (fun h => h rfl), unpack_natLE hs]; rfl

theorem C94_last_compacted_size_none (value : Bytes) (h : slice value 26 28 ≠ [0x44, 0x43]) : lastCompactedSize value = .ok none := by
  unfold lastCompactedSize; rw [if_pos h]

/-- The result of a method: it has returned something, or raised this. -/
theorem unpack_slice_ok_iff (v : Bytes) (i n : Nat) (hn : 0 < n) : (∃ x, unpackLE n (slice v i (i + n)) = .ok x) ↔ i + n ≤ v.length := by
  unfold unpackLE
  rw [slice_length]
  by_cases h : i + n ≤ v.length
  · rw [if_pos (by omega)]; exact ⟨fun _ => h, fun _ => ⟨_, rfl⟩⟩
  · rw [if_neg (by omega)]; exact ⟨(fun ⟨_, hh⟩ => by cases hh), fun hh => absurd hh h⟩

theorem time_ok_iff (v : Bytes) (i : Nat) : (∃ x, timeField v i = .ok x) ↔ i + 8 ≤ v.length := by
  rw [← unpack_slice_ok_iff v i 8 (by omega)]
  unfold timeField
  cases unpackLE 8 (slice v i (i + 8)) with
  | error e => exact ⟨(fun ⟨_, hh⟩ => by cases hh), (fun ⟨_, hh⟩ => by cases hh)⟩
  | ok x => exact ⟨fun _ => ⟨_, rfl⟩, fun _ => ⟨_, rfl⟩⟩

/-- C94: a timestamp of `$STANDARD_INFORMATION` is reported exactly when the value is long enough, and `struct.error` is
raised otherwise. -/
theorem C94_short (v : Bytes) :
    ((∃ t, siCtime v = .ok t) ↔ 8 ≤ v.length) ∧ ((∃ t, siMtime v = .ok t) ↔ 16 ≤ v.length) ∧ ((∃ t, siEtime v = .ok t) ↔ 24 ≤ v.length) ∧
    ((∃ t, siAtime v = .ok t) ↔ 32 ≤ v.length) ∧ ((∃ n, siFileAttributes v = .ok n) ↔ 36 ≤ v.length) ∧ ((∃ n, siClassId v = .ok n) ↔ 48 ≤ v.length) ∧
    (∀ i e, timeField v i = .error e → e = .StructError) ∧ (∀ i n e, unpackLE n (slice v i (i + n)) = .error e → e = .StructError) := by
  have he : ∀ i n e, unpackLE n (slice v i (i + n)) = .error e → e = .StructError := by
    intro i n e h
    unfold unpackLE at h
    split at h
    · cases h
    · cases h; rfl
  refine ⟨time_ok_iff v 0, time_ok_iff v 8, time_ok_iff v 16, time_ok_iff v 24, unpack_slice_ok_iff v 32 4 (by omega), unpack_slice_ok_iff v 44 4 (by omega), ?_, he⟩
  intro i e h
  unfold timeField at h
  cases hu : unpackLE 8 (slice v i (i + 8)) with
  | ok x => rw [hu] at h; cases h
  | error x => rw [hu] at h; cases h; exact he i 8 _ hu

/-- C94 is not vacuous: structures that fit. -/
example : (⟨131000000000000000, 131000000000000001, 131000000000000002, 131000000000000003, 0x20, 0, 0x151, 0⟩ : Fields.StandardInformation).Fits ∧
    (⟨0, 267, 0, 123456⟩ : Fields.StandardInformationExtension).Fits ∧
    (⟨5 * 2 ^ 48 + 5, ⟨131000000000000000, 1, 2, 3, 4096, -1, 0x20, 0, 0⟩, 3, [0x61, 0, 0x62, 0]⟩ : Fields.FileName).Fits ∧
    (⟨5 * 2 ^ 48 + 40, List.replicate 82 1, [0, 0, 0, 0, 0, 0], some 7⟩ : Fields.IndexEntry).Fits ∧
    (⟨0x30, 1, 4096, 1, 16, 256, 256, 1⟩ : Fields.IndexRoot).Fits := by
  refine ⟨by unfold Fields.StandardInformation.Fits; decide, by unfold Fields.StandardInformationExtension.Fits; decide,
    by unfold Fields.FileName.Fits Fields.DuplicatedInformation.Fits; decide, ?_, by unfold Fields.IndexRoot.Fits; decide⟩
  refine ⟨by decide, by decide, by decide, ?_⟩
  intro v hv; cases hv; decide

/-- A reparse point of Microsoft (a symbolic link), and one of somebody else. -/
example : (⟨0xA000000C, none, [1, 2, 3, 4]⟩ : Fields.ReparsePoint).Fits ∧ (⟨0x22, some (List.replicate 16 7), [1, 2, 3, 4]⟩ : Fields.ReparsePoint).Fits := by
  refine ⟨⟨by decide, by decide, by decide, ?_⟩, ⟨by decide, by decide, by decide, ?_⟩⟩
  · intro g hg; cases hg
  · intro g hg; cases hg; rfl

/-- The time in an object identifier: 2024-01-01 00:00:00, in microseconds since 1582-10-15. -/
example : objectIdTimestamp (Fields.guidV1 139236192000000000 5 [1, 2, 3, 4, 5, 6, 7]) = some 13923619200000000 := by decide +kernel

/-! ### C95 -/

theorem timeAt_eq (v : Bytes) (off n i : Nat) (hn : off + n ≤ v.length) :
    (if off ≤ i ∧ (PartialInformation.init (slice v off (off + n)) off).value.length ≥ i + 8 then
      decodeFiletime (u64 (PartialInformation.init (slice v off (off + n)) off).value i) else none) =
    if off ≤ i ∧ i + 8 ≤ off + n then decodeFiletime (leNat (slice v i (i + 8))) else none := by
  have hl : (PartialInformation.init (slice v off (off + n)) off).value.length = off + n := by
    unfold PartialInformation.init
    simp only [List.length_append, zeros_length]
    rw [slice_length_of_le hn]; omega
  rw [hl]
  by_cases h : off ≤ i ∧ i + 8 ≤ off + n
  · rw [if_pos h, if_pos ⟨h.1, h.2⟩]
    congr 1
    unfold u64 PartialInformation.init
    dsimp only
    rw [slice_skip_zeros h.1, slice_slice _ _ _ _ _ (by omega)]
    congr 2 <;> omega
  · rw [if_neg h, if_neg (by omega)]

/-- C95: a log record holds a part of `$STANDARD_INFORMATION`: `n` bytes of the value from the offset `off` on.  Each timestamp is
reported exactly when all its bytes are among these, and it is then the one in the whole value. -/
theorem C95_timestamps (v : Bytes) (off n : Nat) (hn : off + n ≤ v.length) :
    let p := PartialInformation.init (slice v off (off + n)) off
    p.ctime = (if off = 0 ∧ 8 ≤ n then decodeFiletime (leNat (slice v 0 8)) else none) ∧
    p.mtime = (if off ≤ 8 ∧ 16 ≤ off + n then decodeFiletime (leNat (slice v 8 16)) else none) ∧
    p.etime = (if off ≤ 16 ∧ 24 ≤ off + n then decodeFiletime (leNat (slice v 16 24)) else none) ∧
    p.atime = (if off ≤ 24 ∧ 32 ≤ off + n then decodeFiletime (leNat (slice v 24 32)) else none) := by
  refine ⟨?_, timeAt_eq v off n 8 hn, timeAt_eq v off n 16 hn, timeAt_eq v off n 24 hn⟩
  have := timeAt_eq v off n 0 hn
  by_cases h0 : off = 0
  · subst h0
    simp only [Nat.le_refl, true_and, Nat.zero_add] at this ⊢
    unfold PartialInformation.ctime
    by_cases hh : (PartialInformation.init (slice v 0 n) 0).value.length ≥ 8
    · rw [if_pos hh] at this; rw [if_pos ⟨rfl, hh⟩, this]
    · rw [if_neg hh] at this; rw [if_neg (fun h => hh h.2)]; exact this
  · unfold PartialInformation.ctime
    rw [if_neg (fun h => h0 h.1), if_neg (fun h => h0 h.1)]

/-- C95: so a reported timestamp is the one that `$STANDARD_INFORMATION` has when it is parsed as a whole. -/
theorem C95_agrees (v : Bytes) (off n : Nat) (hn : off + n ≤ v.length) :
    let p := PartialInformation.init (slice v off (off + n)) off
    (p.ctime ≠ none → siCtime v = .ok p.ctime) ∧ (p.mtime ≠ none → siMtime v = .ok p.mtime) ∧
    (p.etime ≠ none → siEtime v = .ok p.etime) ∧ (p.atime ≠ none → siAtime v = .ok p.atime) := by
  obtain ⟨h1, h2, h3, h4⟩ := C95_timestamps v off n hn
  have key : ∀ (x : Option Nat) (i : Nat) (c : Prop) [Decidable c], x = (if c then decodeFiletime (leNat (slice v i (i + 8))) else none) →
      (c → i + 8 ≤ v.length) → x ≠ none → timeField v i = .ok x := by
    intro x i c _ hx hc hne
    by_cases h : c
    · rw [if_pos h] at hx
      unfold timeField unpackLE
      rw [if_pos (by rw [slice_length]; have := hc h; omega), hx]
    · rw [if_neg h] at hx; exact absurd hx hne
  exact ⟨key _ 0 _ h1 (by omega), key _ 8 _ h2 (by omega), key _ 16 _ h3 (by omega), key _ 24 _ h4 (by omega)⟩

/-- C95 is not vacuous: twenty bytes from the offset 8 on hold the second and the third timestamps. -/
example : let p := PartialInformation.init (slice (natLE 8 11 ++ natLE 8 22 ++ natLE 8 33 ++ natLE 8 44) 8 28) 8
    (p.ctime, p.mtime, p.etime, p.atime) = (none, some 2, some 3, none) := by decide +kernel

/-! ### C96 -/

/-- What follows the used part of an index buffer, according to its header. -/
def afterUsed (buffer : Bytes) : Bytes := buffer.drop (24 + leNat (slice buffer 28 32))

theorem slackOfBuffers_eq : ∀ l : List Bytes, (∀ b ∈ l, 32 ≤ b.length) →
    slackOfBuffers l = .ok ((l.map afterUsed).filter fun s => decide (8 < s.length)) := by
  intro l
  induction l with
  | nil => intro _; rfl
  | cons b l ih =>
    intro h
    have h32 := h b List.mem_cons_self
    unfold slackOfBuffers indexBufferSlack unpackLE
    rw [if_pos (by rw [slice_length]; omega), ih fun b' hb' => h b' (List.mem_cons_of_mem _ hb')]
    dsimp only
    rw [List.map_cons]
    show Except.ok (if (afterUsed b).length ≤ 8 then _ else afterUsed b :: _) = _
    by_cases hs : (afterUsed b).length ≤ 8
    · rw [if_pos hs, List.filter_cons_of_neg (by simp; omega)]
    · rw [if_neg hs, List.filter_cons_of_pos (by simp; omega)]

/-- C96: the slack space of an index: no exception; exactly what follows the used part of each valid buffer, in order, except the parts
of eight bytes or less, in which nothing can be found. -/
theorem C96_slack (file : Bytes) :
    indexAllocationSlack file = .ok (((indexBuffers file).items.map afterUsed).filter fun s => decide (8 < s.length)) := by
  have hb := (C25_buffers file).1
  have hlen : ∀ b ∈ (indexBuffers file).items, 32 ≤ b.length := by
    rw [hb]
    intro b hm
    dsimp only at hm
    split at hm
    · rename_i size hsz
      obtain ⟨i, -, hi⟩ := List.mem_filterMap.1 hm
      unfold fixedUp at hi
      obtain ⟨r, hr⟩ := C25_total (bufferAt file size i)
      rw [hr] at hi
      dsimp only at hi
      subst hi
      obtain ⟨hs, -, -, h3, -⟩ := C25_restored _ _ hr
      have := hs.1
      omega
    · cases hm
  unfold indexAllocationSlack
  rw [slackOfBuffers_eq _ hlen]
  have he : (indexBuffers file).err = none := by rw [hb]
  rw [he]

/-- C96 is not vacuous: a buffer of 1024 bytes whose header says that 980 bytes are used, so that 20 bytes are left. -/
def slackBuffer : Bytes := [0x49, 0x4E, 0x44, 0x58] ++ natLE 2 40 ++ natLE 2 3 ++ zeros 16 ++ natLE 4 40 ++ natLE 4 980 ++ zeros 8 ++
  [7, 8, 1, 2, 3, 4] ++ zeros 464 ++ [7, 8] ++ zeros 504 ++ [9, 9, 9, 9, 9, 9] ++ [7, 8]
example : indexAllocationSlack slackBuffer = .ok [zeros 12 ++ [9, 9, 9, 9, 9, 9, 3, 4]] := by decide +kernel

end Verif.Props
