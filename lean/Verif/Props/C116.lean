/-
Property C116: names stored in UTF-16 are shown exactly, and a name shown without a replacement character is exactly the stored
one (dfir_ntfs/Attributes.py:473-477, 623-626, dfir_ntfs/MFT.py:413, dfir_ntfs/PartitionTable.py:205-212,
dfir_ntfs/LogFile.py:1886-1892).
-/
import Verif.Proof.Utf16
import Verif.Model.PartitionTable
import Verif.Model.MFT.FileRecord
import Verif.Props.C94_C96
import Verif.Props.C39_C40
namespace Verif.Props.Names16
open Verif Verif.Spec Verif.Spec.Utf16 Verif.Proof.Utf16 Verif.Attributes

/-! ### The label of a volume -/

/-- C116: every text stored as the label is the label shown. -/
theorem C116_label {s : Str} (h : Valid s) : volumeName (encode s) = s := (decode_encode h).1

/-- C116: what is shown can always be stored again, and if it has no replacement character it is what was stored. -/
theorem C116_label_stored (b : Bytes) :
    Valid (volumeName b) ∧ (replacement ∉ volumeName b → encode (volumeName b) = b) :=
  ⟨decode_valid b, encode_decode b⟩

/-- C116: two different stored labels are shown differently, if none has a replacement character. -/
theorem C116_label_injective {a b : Bytes} (ha : replacement ∉ volumeName a) (h : volumeName a = volumeName b) : a = b := by
  rw [← encode_decode a ha, ← encode_decode b (show replacement ∉ volumeName b by rw [← h]; exact ha)]
  exact congrArg encode h

-- "é𝄞" as the label
example : Valid [0xE9, 0x1D11E] ∧ encode [0xE9, 0x1D11E] = [0xE9, 0, 0x34, 0xD8, 0x1E, 0xDD] ∧ replacement ∉ volumeName [0xE9, 0, 0x34, 0xD8, 0x1E, 0xDD] := by
  refine ⟨?_, by decide +kernel, by decide +kernel⟩
  intro c hc
  simp only [List.mem_cons, List.not_mem_nil, or_false] at hc
  unfold Text.scalar
  omega

/-! ### The name of a file -/

/-- C116: the name of a file is the text that was stored. -/
theorem C116_file_name (f : Fields.FileName) (h : f.Fits) {s : Str} (hs : Valid s) (hf : f.name = encode s) (rest : Bytes) :
    fileNameName (f.encode ++ rest) = .ok s := by
  rw [(C94_file_name f h rest).2.2.1, hf, (decode_encode hs).1]

/-- C116: two files whose names are stored differently are shown with different names, unless a replacement character is shown. -/
theorem C116_file_names_differ (f g : Fields.FileName) (hf : f.Fits) (hg : g.Fits) (rest rest' : Bytes) {s : Str} (hr : replacement ∉ s)
    (h1 : fileNameName (f.encode ++ rest) = .ok s) (h2 : fileNameName (g.encode ++ rest') = .ok s) : f.name = g.name := by
  rw [(C94_file_name f hf rest).2.2.1] at h1
  rw [(C94_file_name g hg rest').2.2.1] at h2
  cases h1
  exact C116_label_injective (a := f.name) (b := g.name) hr (Except.ok.inj h2).symm

/-- A file with the name "é𝄞". -/
def demoName : Fields.FileName := ⟨5, ⟨0, 0, 0, 0, 0, 0, 0, 0, 0⟩, 0, [0xE9, 0, 0x34, 0xD8, 0x1E, 0xDD]⟩
example : demoName.Fits ∧ fileNameName (demoName.encode ++ []) = .ok [0xE9, 0x1D11E] := by
  refine ⟨?_, by decide +kernel⟩
  simp [Fields.FileName.Fits, demoName, Fields.DuplicatedInformation.Fits]

/-- C116 without its restriction does not hold: NTFS stores any units in names, and two names with different lone surrogates are
both shown with a replacement character, as is a name that has that character. -/
theorem C116_surrogates_alike :
    volumeName [0x00, 0xD8] = [replacement] ∧ volumeName [0x01, 0xD8] = [replacement] ∧ volumeName [0xFD, 0xFF] = [replacement] := by
  decide +kernel

/-! ### The name of a stream -/

/-- The name of an attribute as it is stored. -/
def storedName : MFT.AttributeRecord → Option Bytes
  | .resident _ name _ => name
  | .nonresident _ name _ _ _ _ _ => name

/-- C116: the name of a stream is the text that was stored, and a stream without a name has none. -/
theorem C116_stream_name (a : MFT.AttributeRecord) :
    (storedName a = none → a.name = none) ∧ ∀ s, Valid s → storedName a = some (encode s) → a.name = some s := by
  cases a <;> refine ⟨fun h => ?_, fun s hs h => ?_⟩ <;>
  · simp only [storedName] at h
    subst h
    simp [MFT.AttributeRecord.name, decode_encode, *]

/-- C116: the part of a stream found under a name is a part of the stream with exactly that stored name, if the name has no
replacement character. -/
theorem C116_stream_found (s : Str) (hr : replacement ∉ s) (index : Bool) (a : MFT.AttributeRecord) (e : MFT.Extent)
    (h : MFT.matchExtent (some s) index a = some e) : storedName a = some (encode s) := by
  cases a with
  | resident t n v => simp [MFT.matchExtent] at h
  | nonresident t n pairs lo hi fs runs =>
    unfold MFT.matchExtent at h
    dsimp only at h
    by_cases hc : t = (if index then MFT.attrTypeIndexAllocation else MFT.attrTypeData) ∧ n.map utf16Decode = some s
    · obtain ⟨b, hb, hs⟩ := Option.map_eq_some_iff.mp hc.2
      rw [storedName, hb, ← encode_decode b (by rw [hs]; exact hr), hs]
    · rw [if_neg hc] at h; cases h

/-- C116 without its restriction does not hold for streams: the parts of two streams with different names are found under one. -/
theorem C116_streams_mixed :
    (MFT.matchExtent (some [replacement]) false (.nonresident 0x80 (some [0x00, 0xD8]) [] 0 7 0 [])).isSome = true ∧
    (MFT.matchExtent (some [replacement]) false (.nonresident 0x80 (some [0x01, 0xD8]) [] 8 15 0 [])).isSome = true := by
  decide +kernel

example : replacement ∉ Str.ofString "ads" ∧
    MFT.matchExtent (some (Str.ofString "ads")) false (.nonresident 0x80 (some [0x61, 0, 0x64, 0, 0x73, 0]) [] 0 7 512 []) = some ⟨0, 7, 512, []⟩ := by
  decide +kernel

/-! ### Names in the log file -/

/-- C116: a name found in a dump of the names of attributes is the text that was stored. -/
theorem C116_log_name (entries : List (Nat × Str)) (tail : Bytes) (index : Nat)
    (hw : ∀ e ∈ entries, e.1 < 65536 ∧ Valid e.2 ∧ e.2 ≠ [] ∧ (encode e.2).length < 65536) (ht : tail.length < 8) :
    LogFile.findName (namesDump (entries.map fun e => (e.1, encode e.2)) tail) index = (entries.find? (·.1 = index)).map (·.2) := by
  rw [C40_names _ _ _ ?_ ht]
  · induction entries with
    | nil => rfl
    | cons e es ih =>
      have ih := ih (fun e he => hw e (List.mem_cons_of_mem _ he))
      by_cases hi : e.1 = index
      · simp [hi, (decode_encode (hw e List.mem_cons_self).2.1).1]
      · simpa [hi] using ih
  · intro e he
    obtain ⟨e', he', rfl⟩ := List.mem_map.mp he
    obtain ⟨h1, h2, h3, h4⟩ := hw e' he'
    refine ⟨h1, ?_, h4⟩
    match hs : e'.2, h3 with
    | c :: s, _ =>
      by_cases hc : c < 0x10000
      · simp only [encode_one hc, List.length_append, natLE_length]; omega
      · simp only [encode_two hc, List.length_append, natLE_length]; omega

example : LogFile.findName (namesDump ([(0x18, Str.ofString "$I30"), (0x40, Str.ofString "$SDS")].map fun e => (e.1, encode e.2)) [0, 0, 0, 0]) 0x40 =
    some (Str.ofString "$SDS") := by decide +kernel

/-! ### The name of a partition -/

/-- C116: the name of a partition is the text that was stored, up to the null characters after it. -/
theorem C116_partition_name {s : Str} (hs : Valid s) (h0 : 0 ∉ s) (n : Nat) :
    PartitionTable.decodePartitionName (encode s ++ zeros (2 * n)) = s := by
  have hv : Valid (s ++ List.replicate n 0) := by
    intro c hc
    rcases List.mem_append.mp hc with hc | hc
    · exact hs c hc
    · rw [(List.mem_replicate.mp hc).2]; exact ⟨by omega, by omega⟩
  unfold PartitionTable.decodePartitionName
  rw [← encode_zeros, ← encode_append, (decode_encode hv).2]
  dsimp only
  rw [List.takeWhile_append_of_pos (by intro c hc; simp only [ne_eq, decide_eq_true_eq]; intro h; subst h; exact h0 hc)]
  cases n with
  | zero => simp
  | succ n => simp [List.replicate_succ]

/-- C116: a name that is shown for a partition is stored there and either fills the field or is followed by a null character;
nothing is shown for a field that is not UTF-16. -/
theorem C116_partition_name_stored (raw : Bytes) :
    (∃ rest, encode (PartitionTable.decodePartitionName raw ++ rest) = raw ∧ Valid (PartitionTable.decodePartitionName raw) ∧
      0 ∉ PartitionTable.decodePartitionName raw ∧ (rest = [] ∨ rest.head? = some 0)) ∨
    (PartitionTable.decodePartitionName raw = [] ∧ ∀ s, Valid s → encode s ≠ raw) := by
  unfold PartitionTable.decodePartitionName
  cases h : utf16DecodeStrict raw with
  | none =>
    refine Or.inr ⟨rfl, fun s hs he => ?_⟩
    rw [← he, (decode_encode hs).2] at h
    cases h
  | some s =>
    obtain ⟨h1, h2⟩ := (strict_iff raw s).mp h
    refine Or.inl ⟨s.dropWhile (· ≠ 0), ?_, ?_, ?_, ?_⟩
    · dsimp only; rw [List.takeWhile_append_dropWhile, h2]
    · intro c hc; exact h1 c (List.takeWhile_subset _ hc)
    · intro hm; have := List.all_eq_true.mp (List.all_takeWhile (p := (· ≠ 0)) (l := s)) 0 hm; simp at this
    · cases hd : s.dropWhile (· ≠ 0) with
      | nil => exact Or.inl rfl
      | cons c t =>
        right
        have := List.head?_dropWhile_not (· ≠ 0) s
        rw [hd] at this
        simpa using this

example : PartitionTable.decodePartitionName (encode (Str.ofString "Data") ++ zeros (2 * 32)) = Str.ofString "Data" ∧
    PartitionTable.decodePartitionName [0x41, 0, 0x00, 0xD8, 0x42, 0] = [] := by decide +kernel

end Verif.Props.Names16
