/-
Properties C01-C04: file references and mapping pairs (dfir_ntfs/MFT.py:77-174).
-/
import Verif.Proof.MappingPairs
namespace Verif.Props
open Verif.MFT Verif.Spec.MappingPairs

/-- C01 (first half): splitting and re-joining a reference is the identity. -/
theorem C01_encode_decode (r : Nat) :
    encodeFileRecordSegmentReference (decodeFileRecordSegmentReference r).1
      (decodeFileRecordSegmentReference r).2 = r := by
  simp only [decodeFileRecordSegmentReference, encodeFileRecordSegmentReference]
  have h : r &&& 0xFFFFFFFFFFFF = r % 2 ^ 48 := and_mask r 48
  rw [h, shiftLeft_or_of_lt (Nat.mod_lt _ (by decide)), Nat.shiftRight_eq_div_pow]
  omega

/-- C01 (second half): joining and splitting gives the pair back. -/
theorem C01_decode_encode (segment sequence : Nat) (h : segment < 2 ^ 48) :
    decodeFileRecordSegmentReference (encodeFileRecordSegmentReference segment sequence) = (segment, sequence) := by
  simp only [decodeFileRecordSegmentReference, encodeFileRecordSegmentReference]
  have h' : ∀ x : Nat, x &&& 0xFFFFFFFFFFFF = x % 2 ^ 48 := fun x => and_mask x 48
  rw [shiftLeft_or_of_lt h, h', Nat.shiftRight_eq_div_pow]
  congr 1 <;> omega

/-- C01: the parts of a 64-bit reference are a 48-bit and a 16-bit number. -/
theorem C01_decode_range (r : Nat) (h : r < 2 ^ 64) :
    (decodeFileRecordSegmentReference r).1 < 2 ^ 48 ∧ (decodeFileRecordSegmentReference r).2 < 2 ^ 16 := by
  simp only [decodeFileRecordSegmentReference]
  have h' : r &&& 0xFFFFFFFFFFFF = r % 2 ^ 48 := and_mask r 48
  rw [h', Nat.shiftRight_eq_div_pow]
  omega

/-- C01: different pairs never share a reference. -/
theorem C01_injective (s₁ q₁ s₂ q₂ : Nat) (h₁ : s₁ < 2 ^ 48) (h₂ : s₂ < 2 ^ 48)
    (h : encodeFileRecordSegmentReference s₁ q₁ = encodeFileRecordSegmentReference s₂ q₂) :
    s₁ = s₂ ∧ q₁ = q₂ := by
  have := congrArg decodeFileRecordSegmentReference h
  rw [C01_decode_encode _ _ h₁, C01_decode_encode _ _ h₂] at this
  exact ⟨congrArg Prod.fst this, congrArg Prod.snd this⟩

example : decodeFileRecordSegmentReference 0x0007000000001234 = (0x1234, 7) := by decide
example : encodeFileRecordSegmentReference 0x1234 7 = 0x0007000000001234 := by decide

/-- C02: for every storable run list, with any legal field sizes, the decoder applied to the stored
bytes, the terminator and any trailing bytes gives exactly the run list. -/
theorem C02_mapping_pairs_roundtrip (rs : List StoredRun) (h : ListOk 0 true rs) (trailing : Bytes) :
    decodeMappingPairs (encode 0 rs ++ (0 :: trailing)) = .ok (rs.map StoredRun.run) := by
  have := loop_encode rs 0 [] true trailing h (fun _ => rfl)
  simpa [decodeMappingPairs] using this

/-- C02 is not vacuous: a fragmented file with a sparse run and a backward jump. -/
example : ListOk 0 true [⟨1, 2, some 0x5634, 0x18⟩, ⟨2, 0, none, 300⟩, ⟨1, 2, some 0x5000, 7⟩] := by
  simp [ListOk, RunOk, Fits, nextBase]

example : decodeMappingPairs [0x21, 0x18, 0x34, 0x56, 0x02, 0x2C, 0x01, 0x21, 0x07, 0xCC, 0xF9, 0x00, 0xFF]
    = .ok [(some 0x5634, 0x18), (none, 300), (some 0x5000, 7)] := by decide +kernel

/-- C03: the decoder accepts only encodings of storable run lists (so the returned runs are the
ones the bytes describe) ... -/
theorem C03_mapping_pairs_sound (bs : Bytes) (runs : List Run) (h : decodeMappingPairs bs = .ok runs) :
    ∃ rs trailing, ListOk 0 true rs ∧ bs = encode 0 rs ++ (0 :: trailing) ∧ runs = rs.map StoredRun.run := by
  obtain ⟨rs, t, h1, h2, h3⟩ := (loop_sound bs 0 []).2 runs h
  exact ⟨rs, t, h1, h2, by simpa using h3⟩

/-- C03: ... it raises nothing but `MappingPairsException` ... -/
theorem C03_mapping_pairs_only_exception (bs : Bytes) (e : Exc) (h : decodeMappingPairs bs = .error e) :
    e = .MappingPairsException := (loop_sound bs 0 []).1 e h

/-- C03: ... all lengths are positive and below 2^63 ... -/
theorem C03_lengths_positive (bs : Bytes) (runs : List Run) (h : decodeMappingPairs bs = .ok runs) :
    ∀ r ∈ runs, 0 < r.2 ∧ r.2 < 2 ^ 63 := by
  obtain ⟨rs, t, hok, -, rfl⟩ := C03_mapping_pairs_sound bs runs h
  have aux : ∀ (rs : List StoredRun) prev first, ListOk prev first rs → ∀ r ∈ rs.map StoredRun.run, 0 < r.2 ∧ r.2 < 2 ^ 63 := by
    intro rs
    induction rs with
    | nil => simp
    | cons x xs ih =>
      intro prev first ⟨⟨h1, h8, hp, hf, _⟩, _, hrest⟩ r hr
      simp only [List.map_cons, List.mem_cons] at hr
      rcases hr with rfl | hr
      · refine ⟨hp, ?_⟩
        have := hf.2
        have h256 : (256 : Int) ^ x.cw ≤ 256 ^ 8 := by
          have := Nat.pow_le_pow_right (n := 256) (by decide) h8
          have hc : ((256 ^ x.cw : Nat) : Int) = (256 : Int) ^ x.cw := by simp
          omega
        show x.count < 2 ^ 63
        omega
      · exact ih _ _ hrest r hr
  exact aux rs 0 true hok

/-- C03: ... and no run other than the first one starts at cluster 0. -/
theorem C03_zero_only_first (bs : Bytes) (runs : List Run) (h : decodeMappingPairs bs = .ok runs) :
    ∀ r ∈ runs.tail, r.1 ≠ some 0 := by
  obtain ⟨rs, t, hok, -, rfl⟩ := C03_mapping_pairs_sound bs runs h
  have aux : ∀ (rs : List StoredRun) prev, ListOk prev false rs → ∀ r ∈ rs.map StoredRun.run, r.1 ≠ some 0 := by
    intro rs
    induction rs with
    | nil => simp
    | cons x xs ih =>
      intro prev ⟨_, h0, hrest⟩ r hr
      simp only [List.map_cons, List.mem_cons] at hr
      rcases hr with rfl | hr
      · intro hc; simpa using h0 hc
      · exact ih _ hrest r hr
  cases rs with
  | nil => simp
  | cons x xs => simpa using aux xs _ hok.2.2

example : decodeMappingPairs [0x09, 0, 0, 0, 0, 0, 0, 0, 0, 1, 0] = .error .MappingPairsException := by decide +kernel
example : decodeMappingPairs [0x11, 0x05, 0x00, 0x01, 0x02, 0x00] = .ok [(some 0, 5), (none, 2)] := by decide +kernel

/-- C04 is FALSE of the code: a single run with a negative difference is accepted and reported with
a negative LCN. -/
theorem C04_negative_lcn_accepted :
    ¬ ∀ (bs : Bytes) (runs : List Run), decodeMappingPairs bs = .ok runs →
        ∀ r ∈ runs, ∀ l, r.1 = some l → 0 ≤ l := by
  intro h
  have hd : decodeMappingPairs [0x11, 0x01, 0xFF, 0x00] = .ok [(some (-1), 1)] := by decide +kernel
  have := h _ _ hd (some (-1), 1) (by simp) (-1) rfl
  omega

/-- C04, the part that holds: the decoder itself never makes an LCN negative - when the stored list
has only non-negative LCNs, so has the returned list.  Missing: rejection of stored lists whose
differences lead below zero. -/
theorem C04_lcn_nonneg_partial (rs : List StoredRun) (h : ListOk 0 true rs) (trailing : Bytes)
    (hn : ∀ r ∈ rs, ∀ l, r.lcn = some l → 0 ≤ l) :
    ∃ runs, decodeMappingPairs (encode 0 rs ++ (0 :: trailing)) = .ok runs ∧
      ∀ r ∈ runs, ∀ l, r.1 = some l → 0 ≤ l := by
  refine ⟨_, C02_mapping_pairs_roundtrip rs h trailing, ?_⟩
  intro r hr l hl
  obtain ⟨x, hx, rfl⟩ := List.mem_map.mp hr
  exact hn x hx l hl

end Verif.Props
