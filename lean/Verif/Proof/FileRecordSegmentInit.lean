import Verif.Proof.FileRecordSegment
import Verif.Proof.Attributes
namespace Verif.MFT
open Verif.Spec.FRS

theorem mem_sizes {n : Nat} : n ∈ fileRecordSegmentSizesSupported ↔ n = 1024 ∨ n = 4096 := by
  simp [fileRecordSegmentSizesSupported]

theorem signature_iff (b : Bytes) : slice b 0 4 ∈ multiSectorHeaderSignaturesSupported ↔
    slice b 0 4 = "FILE".toUTF8.toList ∨ slice b 0 4 = "BAAD".toUTF8.toList ∨
    slice b 0 4 = "CHKD".toUTF8.toList := by
  have e1 : "FILE".toUTF8.toList = [0x46, 0x49, 0x4C, 0x45] := by decide +kernel
  have e2 : "BAAD".toUTF8.toList = [0x42, 0x41, 0x41, 0x44] := by decide +kernel
  have e3 : "CHKD".toUTF8.toList = [0x43, 0x48, 0x4B, 0x44] := by decide +kernel
  rw [e1, e2, e3]
  simp [multiSectorHeaderSignaturesSupported, multiSectorHeaderSignatureGood]

/-- The four header reads used by the validation, on the two copies of the data. -/
structure SameHeader (a b : Bytes) : Prop where
  len : a.length = b.length
  bytes : ∀ p, p % 512 < 510 → a[p]? = b[p]?

theorem SameHeader.slice {a b : Bytes} (h : SameHeader a b) {i j : Nat} (hj : j ≤ 510) : slice a i j = slice b i j :=
  slice_congr fun p _ h2 => h.bytes p (by omega)

/-- Validation succeeds exactly on these headers. -/
theorem validateHeader_ok {data : Bytes} {o n : Nat} : validateHeader data o n = .ok () ↔
    (declaredSize data = 1024 ∨ declaredSize data = 4096) ∧ declaredSize data ≤ data.length ∧
    (42 ≤ usedSize data ∧ usedSize data ≤ declaredSize data) ∧ 8 ≤ firstAttribute data ∧ 8 ∣ firstAttribute data ∧
    firstAttribute data + 24 ≤ declaredSize data ∧ o + 2 * n ≤ firstAttribute data := by
  have e1 : fileRecordSegmentSize data = declaredSize data := rfl
  have e2 : firstFreeByteOffset data = usedSize data := rfl
  have e3 : firstAttributeOffset data = firstAttribute data := rfl
  unfold validateHeader
  simp only [e1, e2, e3, fileRecordSegmentSizesSupported, List.mem_cons, List.not_mem_nil, or_false]
  constructor
  · intro h
    repeat' split at h
    all_goals first | cases h | skip
    omega
  · intro h
    rw [if_neg (by omega), if_neg (by omega), if_neg (by omega), if_neg (by omega)]

theorem validateHeader_error {data : Bytes} {o n : Nat} {e : Exc} (h : validateHeader data o n = .error e) :
    e = .FileRecordSegmentException := by
  unfold validateHeader at h
  dsimp only at h
  repeat' split at h
  all_goals first | (cases h; rfl) | cases h

/-- The conditions of the multi-sector header when fix-ups are applied. -/
theorem parseMultiSectorHeader_ok {data : Bytes} (hlen : data.length = 1024 ∨ data.length = 4096) {o n : Nat} :
    parseMultiSectorHeader data true = .ok (o, n) ↔
      o = usaOffset data ∧ n = usaCount data ∧
      (slice data 0 4 = "FILE".toUTF8.toList ∨ slice data 0 4 = "BAAD".toUTF8.toList ∨
        slice data 0 4 = "CHKD".toUTF8.toList) ∧
      (42 ≤ usaOffset data ∧ usaOffset data ≤ 506) ∧ usaCount data = data.length / 512 + 1 := by
  have e1 : u16 data 4 = usaOffset data := rfl
  have e2 : u16 data 6 = usaCount data := rfl
  unfold parseMultiSectorHeader
  simp only [e1, e2, updateSequenceStride, true_and]
  rw [← signature_iff]
  constructor
  · intro h
    split at h
    · cases h
    rename_i hs
    split at h
    · cases h
    split at h
    · cases h
    split at h
    · cases h
    cases h
    exact ⟨rfl, rfl, by simpa using hs, by omega, by omega⟩
  · rintro ⟨rfl, rfl, hs, ho, hc⟩
    rw [if_neg (by simpa using hs), if_neg (by omega), if_neg (by omega), if_neg (by omega)]

theorem parseMultiSectorHeader_error {data : Bytes} {v : Bool} {e : Exc}
    (h : parseMultiSectorHeader data v = .error e) :
    e = .FileRecordSegmentException ∨ (e = .FileRecordSegmentSignatureException ∧
      ¬ (slice data 0 4 = "FILE".toUTF8.toList ∨ slice data 0 4 = "BAAD".toUTF8.toList ∨
        slice data 0 4 = "CHKD".toUTF8.toList)) := by
  rw [← signature_iff]
  unfold parseMultiSectorHeader at h
  dsimp only at h
  repeat' split at h
  all_goals first | (cases h; right; exact ⟨rfl, by assumption⟩) | (cases h; left; rfl) | cases h

theorem torn_eq {b : Bytes} {j : Nat} (hj : 1 ≤ j) : slice b (j * 512 - 2) (j * 512) = slice b (512 * (j - 1) + 510) (512 * (j - 1) + 512) := by
  rw [show j * 512 - 2 = 512 * (j - 1) + 510 by omega, show j * 512 = 512 * (j - 1) + 512 by omega]

/-- Everything a successful construction says. -/
theorem init_ok {buf : Bytes} {s : Option Nat} {f : FileRecordSegment}
    (h : FileRecordSegment.init buf true s = .ok f) :
    SaneHeader buf ∧ (∀ k, 512 * k < usedSize buf → ¬ Torn buf k) ∧ SameHeader f.data buf ∧
    f.usaOffset = usaOffset buf ∧ f.usaSize = usaCount buf ∧ f.shortVersion = decide (usaOffset buf < 48) ∧
    f.suggestedMftNumber = s ∧
    (usaOffset buf + 2 * usaCount buf ≤ 510 → ∃ n, (∀ k, 512 * k < usedSize buf → k < n) ∧ n ≤ buf.length / 512 ∧
      (∀ k, k < n → ¬ Torn buf k) ∧ (n < buf.length / 512 → Torn buf n) ∧
      ∀ p, f.data[p]? = if 510 ≤ p % 512 ∧ p / 512 < n then buf[usaOffset buf + 2 * (p / 512 + 1) + (p % 512 - 510)]?
        else buf[p]?) := by
  unfold FileRecordSegment.init at h
  split at h
  · cases h
  rename_i hsize
  have hsize : buf.length = 1024 ∨ buf.length = 4096 := by
    exact mem_sizes.1 (Decidable.not_not.1 hsize)
  split at h
  · cases h
  rename_i o c hp
  obtain ⟨rfl, rfl, hsig, ho, hc⟩ := (parseMultiSectorHeader_ok hsize).1 hp
  rw [if_pos rfl] at h
  split at h
  · cases h
  rename_i data n ha
  split at h
  · cases h
  rename_i hn0
  split at h
  · cases h
  rename_i hv
  cases h
  unfold applyUsa at ha
  obtain ⟨c1, c2, c3, c4, c5, c6, c7, c8⟩ := applyUsaLoop_ok _ _ _ _ _ _ rfl _ _ ha
  have hsame : SameHeader data buf := ⟨c3, fun p hp => c7 p (.inl hp)⟩
  obtain ⟨v1, v2, v3, v4, v5, v6, v7⟩ := validateHeader_ok.1 hv
  have ed : declaredSize data = declaredSize buf := by unfold declaredSize; rw [hsame.slice (by omega)]
  have eu : usedSize data = usedSize buf := by unfold usedSize; rw [hsame.slice (by omega)]
  have ef : firstAttribute data = firstAttribute buf := by unfold firstAttribute; rw [hsame.slice (by omega)]
  rw [ed] at v1 v2 v3 v6
  rw [eu] at v3
  rw [ef] at v4 v5 v6 v7
  have euf : firstFreeByteOffset buf = usedSize buf := rfl
  rw [euf] at c5 c6
  have hsane : SaneHeader buf := ⟨hsize, hsig, ho, hc, v1, by omega, v3, v5, v7, v6⟩
  have hk : ∀ k, 512 * k < usedSize buf → k < n := by
    intro k hk
    have := c6 (k + 1) (by omega) (by omega) (by rw [Nat.add_sub_cancel]; omega)
    omega
  have ht : ∀ k, k < n → ¬ Torn buf k := by
    intro k hk ht
    apply ht
    have := c5 (by omega) (k + 1) (by omega) (by omega)
    rw [torn_eq (by omega), Nat.add_sub_cancel] at this
    exact this
  refine ⟨hsane, fun k h => ht k (hk k h), hsame, rfl, rfl, rfl, rfl, ?_⟩
  intro hov
  refine ⟨n, hk, by have := c2 (by omega); omega, ht, ?_, ?_⟩
  · intro hn
    have := c8 (by omega)
    rw [torn_eq (by omega), Nat.add_sub_cancel] at this
    exact this
  intro p
  rw [c4 hov p]
  by_cases hp : 510 ≤ p % 512 ∧ p / 512 < n
  · rw [if_pos hp, if_pos (by omega)]
  · rw [if_neg hp, if_neg (by omega)]

/-- A sane, untorn record is accepted. -/
theorem init_total {buf : Bytes} (s : Option Nat) (h : SaneHeader buf)
    (ht : ∀ k, 512 * k < usedSize buf → ¬ Torn buf k) :
    ∃ f, FileRecordSegment.init buf true s = .ok f := by
  have euf : firstFreeByteOffset buf = usedSize buf := rfl
  have hlen : (usaCount buf - 1) * 512 = buf.length := by
    rw [h.usaCount]; rcases h.bufferSize with h | h <;> rw [h]
  obtain ⟨d, n, ha⟩ := applyUsaLoop_total (slice buf (usaOffset buf) (usaOffset buf + 2)) (usaOffset buf) (usaCount buf) 1 0 buf rfl hlen
    (by have := h.usaPlace; have := h.usaCount; have := h.bufferSize; omega) (by
      intro j hj1 hj2 hj3
      rw [torn_eq hj1]
      apply Decidable.byContradiction
      intro hc
      exact ht (j - 1) (by rw [euf] at hj3; omega) hc)
  obtain ⟨c1, c2, c3, c4, c5, c6, c7, c8⟩ := applyUsaLoop_ok _ _ _ _ _ _ rfl _ _ ha
  have hsame : SameHeader d buf := ⟨c3, fun p hp => c7 p (.inl hp)⟩
  have ed : declaredSize d = declaredSize buf := by unfold declaredSize; rw [hsame.slice (by omega)]
  have eu : usedSize d = usedSize buf := by unfold usedSize; rw [hsame.slice (by omega)]
  have ef : firstAttribute d = firstAttribute buf := by unfold firstAttribute; rw [hsame.slice (by omega)]
  have hv : validateHeader d (usaOffset buf) (usaCount buf) = .ok () := by
    apply validateHeader_ok.2
    rw [ed, eu, ef, c3]
    have := h.attrAfterUsa
    have := h.usaPlace
    exact ⟨h.size, h.sizeFits, h.used, by omega, h.attrAligned, h.attrRoom, by omega⟩
  have hp := (parseMultiSectorHeader_ok h.bufferSize).2 ⟨rfl, rfl, h.signature, h.usaPlace, h.usaCount⟩
  have hn : n ≠ 0 := by
    have h1 := h.used
    have := c6 1 (by omega) (by have := h.usaCount; have := h.bufferSize; omega) (by rw [euf]; omega)
    omega
  unfold FileRecordSegment.init
  rw [if_neg (fun hc => hc (mem_sizes.2 h.bufferSize)), hp]
  simp only [if_true, applyUsa, ha, hn, if_false, hv]
  exact ⟨_, rfl⟩

theorem init_error {buf : Bytes} {s : Option Nat} {e : Exc}
    (h : FileRecordSegment.init buf true s = .error e) :
    e = .FileRecordSegmentException ∨ (e = .FileRecordSegmentSignatureException ∧
      ¬ (slice buf 0 4 = "FILE".toUTF8.toList ∨ slice buf 0 4 = "BAAD".toUTF8.toList ∨
        slice buf 0 4 = "CHKD".toUTF8.toList)) := by
  unfold FileRecordSegment.init at h
  split at h
  · cases h; left; rfl
  rename_i hsize
  have hsize : buf.length = 1024 ∨ buf.length = 4096 := by
    exact mem_sizes.1 (Decidable.not_not.1 hsize)
  split at h
  · rename_i e' hp
    cases h; exact parseMultiSectorHeader_error hp
  rename_i o c hp
  obtain ⟨rfl, rfl, hsig, ho, hc⟩ := (parseMultiSectorHeader_ok hsize).1 hp
  rw [if_pos rfl] at h
  split at h
  · rename_i e' ha
    cases h
    left
    have hlen : (usaCount buf - 1) * 512 = buf.length := by
      rw [hc]; rcases hsize with h | h <;> rw [h]
    exact applyUsaLoop_error _ _ _ _ _ _ rfl hlen (by omega) _ ha
  split at h
  · cases h; left; rfl
  split at h
  · rename_i e' hv
    cases h; left; exact validateHeader_error hv
  · cases h

end Verif.MFT
