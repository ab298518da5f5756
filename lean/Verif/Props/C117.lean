/-
Property C117: the fields of the structures of a log file are the ones that were stored, and the clients of a restart area are the ones
that it lists (dfir_ntfs/LogFile.py:307-612, 1441-1550, 1781-1862).
-/
import Verif.Model.LogFile.Fields
import Verif.Spec.LogFields
import Verif.Proof.Chunks
import Verif.Proof.Utf16
namespace Verif.Props.LogFields
open Verif Verif.LogFile Verif.Spec.LogFields Verif.Proof.Chunks Verif.Spec Verif.Proof.Utf16

/-! ### The places of the fields -/

set_option linter.unusedSimpArgs false in
private theorem area_layout (s : Area) (h : s.Fits) :
    slice s.bytes 0 8 = natLE 8 s.current ∧
    slice s.bytes 8 10 = natLE 2 s.count ∧
    slice s.bytes 10 12 = natLE 2 s.free ∧
    slice s.bytes 12 14 = natLE 2 s.inUse ∧
    slice s.bytes 14 16 = natLE 2 s.flags ∧
    slice s.bytes 16 20 = natLE 4 s.sequenceBits ∧
    slice s.bytes 20 22 = natLE 2 s.length ∧
    slice s.bytes 22 24 = natLE 2 s.arrayOffset ∧
    slice s.bytes 24 32 = intLE 8 s.fileSize ∧
    slice s.bytes 32 36 = natLE 4 s.lastLength ∧
    slice s.bytes 36 38 = natLE 2 s.headerLength ∧
    slice s.bytes 38 40 = natLE 2 s.dataOffset ∧
    slice s.bytes 40 44 = natLE 4 s.revision := by
  exact
  ⟨slice_chunk _ 0 rfl (by simp [Area.fields, natLE_length, intLE_length]) (by simp [Area.fields, natLE_length, intLE_length]),
   slice_chunk _ 1 rfl (by simp [Area.fields, natLE_length, intLE_length]) (by simp [Area.fields, natLE_length, intLE_length]),
   slice_chunk _ 2 rfl (by simp [Area.fields, natLE_length, intLE_length]) (by simp [Area.fields, natLE_length, intLE_length]),
   slice_chunk _ 3 rfl (by simp [Area.fields, natLE_length, intLE_length]) (by simp [Area.fields, natLE_length, intLE_length]),
   slice_chunk _ 4 rfl (by simp [Area.fields, natLE_length, intLE_length]) (by simp [Area.fields, natLE_length, intLE_length]),
   slice_chunk _ 5 rfl (by simp [Area.fields, natLE_length, intLE_length]) (by simp [Area.fields, natLE_length, intLE_length]),
   slice_chunk _ 6 rfl (by simp [Area.fields, natLE_length, intLE_length]) (by simp [Area.fields, natLE_length, intLE_length]),
   slice_chunk _ 7 rfl (by simp [Area.fields, natLE_length, intLE_length]) (by simp [Area.fields, natLE_length, intLE_length]),
   slice_chunk _ 8 rfl (by simp [Area.fields, natLE_length, intLE_length]) (by simp [Area.fields, natLE_length, intLE_length]),
   slice_chunk _ 9 rfl (by simp [Area.fields, natLE_length, intLE_length]) (by simp [Area.fields, natLE_length, intLE_length]),
   slice_chunk _ 10 rfl (by simp [Area.fields, natLE_length, intLE_length]) (by simp [Area.fields, natLE_length, intLE_length]),
   slice_chunk _ 11 rfl (by simp [Area.fields, natLE_length, intLE_length]) (by simp [Area.fields, natLE_length, intLE_length]),
   slice_chunk _ 12 rfl (by simp [Area.fields, natLE_length, intLE_length]) (by simp [Area.fields, natLE_length, intLE_length])⟩

set_option linter.unusedSimpArgs false in
private theorem page_layout (s : Page) (h : s.Fits) :
    slice s.bytes 0 4 = s.signature ∧
    slice s.bytes 4 6 = natLE 2 s.usaOffset ∧
    slice s.bytes 6 8 = natLE 2 s.usaCount ∧
    slice s.bytes 8 16 = natLE 8 s.last ∧
    slice s.bytes 16 20 = natLE 4 s.flags ∧
    slice s.bytes 20 22 = natLE 2 s.count ∧
    slice s.bytes 22 24 = natLE 2 s.position ∧
    slice s.bytes 24 26 = natLE 2 s.next ∧
    slice s.bytes 26 32 = s.unused ∧
    slice s.bytes 32 40 = natLE 8 s.lastEnd ∧
    slice s.bytes 40 60 = s.gap ∧
    slice s.bytes 60 64 = natLE 4 s.fileOffset := by
  exact
  ⟨slice_chunk _ 0 rfl (by simp [Page.fields, natLE_length, intLE_length, h.signature, h.unused, h.gap]) (by simp [Page.fields, natLE_length, intLE_length, h.signature, h.unused, h.gap]),
   slice_chunk _ 1 rfl (by simp [Page.fields, natLE_length, intLE_length, h.signature, h.unused, h.gap]) (by simp [Page.fields, natLE_length, intLE_length, h.signature, h.unused, h.gap]),
   slice_chunk _ 2 rfl (by simp [Page.fields, natLE_length, intLE_length, h.signature, h.unused, h.gap]) (by simp [Page.fields, natLE_length, intLE_length, h.signature, h.unused, h.gap]),
   slice_chunk _ 3 rfl (by simp [Page.fields, natLE_length, intLE_length, h.signature, h.unused, h.gap]) (by simp [Page.fields, natLE_length, intLE_length, h.signature, h.unused, h.gap]),
   slice_chunk _ 4 rfl (by simp [Page.fields, natLE_length, intLE_length, h.signature, h.unused, h.gap]) (by simp [Page.fields, natLE_length, intLE_length, h.signature, h.unused, h.gap]),
   slice_chunk _ 5 rfl (by simp [Page.fields, natLE_length, intLE_length, h.signature, h.unused, h.gap]) (by simp [Page.fields, natLE_length, intLE_length, h.signature, h.unused, h.gap]),
   slice_chunk _ 6 rfl (by simp [Page.fields, natLE_length, intLE_length, h.signature, h.unused, h.gap]) (by simp [Page.fields, natLE_length, intLE_length, h.signature, h.unused, h.gap]),
   slice_chunk _ 7 rfl (by simp [Page.fields, natLE_length, intLE_length, h.signature, h.unused, h.gap]) (by simp [Page.fields, natLE_length, intLE_length, h.signature, h.unused, h.gap]),
   slice_chunk _ 8 rfl (by simp [Page.fields, natLE_length, intLE_length, h.signature, h.unused, h.gap]) (by simp [Page.fields, natLE_length, intLE_length, h.signature, h.unused, h.gap]),
   slice_chunk _ 9 rfl (by simp [Page.fields, natLE_length, intLE_length, h.signature, h.unused, h.gap]) (by simp [Page.fields, natLE_length, intLE_length, h.signature, h.unused, h.gap]),
   slice_chunk _ 10 rfl (by simp [Page.fields, natLE_length, intLE_length, h.signature, h.unused, h.gap]) (by simp [Page.fields, natLE_length, intLE_length, h.signature, h.unused, h.gap]),
   slice_chunk _ 11 rfl (by simp [Page.fields, natLE_length, intLE_length, h.signature, h.unused, h.gap]) (by simp [Page.fields, natLE_length, intLE_length, h.signature, h.unused, h.gap])⟩

set_option linter.unusedSimpArgs false in
private theorem header_layout (s : RecordHeader) (h : s.Fits) :
    slice s.bytes 0 8 = natLE 8 s.this ∧
    slice s.bytes 8 16 = natLE 8 s.previous ∧
    slice s.bytes 16 24 = natLE 8 s.undoNext ∧
    slice s.bytes 24 28 = natLE 4 s.length ∧
    slice s.bytes 28 32 = natLE 4 s.client ∧
    slice s.bytes 32 36 = natLE 4 s.type ∧
    slice s.bytes 36 40 = natLE 4 s.transaction ∧
    slice s.bytes 40 42 = natLE 2 s.flags ∧
    slice s.bytes 42 48 = s.unused := by
  exact
  ⟨slice_chunk _ 0 rfl (by simp [RecordHeader.fields, natLE_length, intLE_length, h.unused]) (by simp [RecordHeader.fields, natLE_length, intLE_length, h.unused]),
   slice_chunk _ 1 rfl (by simp [RecordHeader.fields, natLE_length, intLE_length, h.unused]) (by simp [RecordHeader.fields, natLE_length, intLE_length, h.unused]),
   slice_chunk _ 2 rfl (by simp [RecordHeader.fields, natLE_length, intLE_length, h.unused]) (by simp [RecordHeader.fields, natLE_length, intLE_length, h.unused]),
   slice_chunk _ 3 rfl (by simp [RecordHeader.fields, natLE_length, intLE_length, h.unused]) (by simp [RecordHeader.fields, natLE_length, intLE_length, h.unused]),
   slice_chunk _ 4 rfl (by simp [RecordHeader.fields, natLE_length, intLE_length, h.unused]) (by simp [RecordHeader.fields, natLE_length, intLE_length, h.unused]),
   slice_chunk _ 5 rfl (by simp [RecordHeader.fields, natLE_length, intLE_length, h.unused]) (by simp [RecordHeader.fields, natLE_length, intLE_length, h.unused]),
   slice_chunk _ 6 rfl (by simp [RecordHeader.fields, natLE_length, intLE_length, h.unused]) (by simp [RecordHeader.fields, natLE_length, intLE_length, h.unused]),
   slice_chunk _ 7 rfl (by simp [RecordHeader.fields, natLE_length, intLE_length, h.unused]) (by simp [RecordHeader.fields, natLE_length, intLE_length, h.unused]),
   slice_chunk _ 8 rfl (by simp [RecordHeader.fields, natLE_length, intLE_length, h.unused]) (by simp [RecordHeader.fields, natLE_length, intLE_length, h.unused])⟩

set_option linter.unusedSimpArgs false in
private theorem ntfs_layout (s : NtfsArea) (h : s.Fits) :
    slice s.bytes 0 4 = natLE 4 s.major ∧
    slice s.bytes 4 8 = natLE 4 s.minor ∧
    slice s.bytes 8 16 = natLE 8 s.checkpoint ∧
    slice s.bytes 16 24 = natLE 8 s.openAttributes ∧
    slice s.bytes 24 32 = natLE 8 s.names ∧
    slice s.bytes 32 40 = natLE 8 s.dirtyPages ∧
    slice s.bytes 40 48 = natLE 8 s.transactions ∧
    slice s.bytes 48 52 = natLE 4 s.openAttributesLength ∧
    slice s.bytes 52 56 = natLE 4 s.namesLength ∧
    slice s.bytes 56 60 = natLE 4 s.dirtyPagesLength ∧
    slice s.bytes 60 64 = natLE 4 s.transactionsLength ∧
    slice s.bytes 64 72 = intLE 8 s.usnStart ∧
    slice s.bytes 72 80 = natLE 8 s.last ∧
    slice s.bytes 80 84 = natLE 4 s.cluster ∧
    slice s.bytes 84 88 = s.unused ∧
    slice s.bytes 88 96 = natLE 8 s.journal ∧
    slice s.bytes 96 104 = intLE 8 s.usnBase ∧
    slice s.bytes 104 112 = natLE 8 s.oldest := by
  exact
  ⟨slice_chunk _ 0 rfl (by simp [NtfsArea.fields, natLE_length, intLE_length, h.unused]) (by simp [NtfsArea.fields, natLE_length, intLE_length, h.unused]),
   slice_chunk _ 1 rfl (by simp [NtfsArea.fields, natLE_length, intLE_length, h.unused]) (by simp [NtfsArea.fields, natLE_length, intLE_length, h.unused]),
   slice_chunk _ 2 rfl (by simp [NtfsArea.fields, natLE_length, intLE_length, h.unused]) (by simp [NtfsArea.fields, natLE_length, intLE_length, h.unused]),
   slice_chunk _ 3 rfl (by simp [NtfsArea.fields, natLE_length, intLE_length, h.unused]) (by simp [NtfsArea.fields, natLE_length, intLE_length, h.unused]),
   slice_chunk _ 4 rfl (by simp [NtfsArea.fields, natLE_length, intLE_length, h.unused]) (by simp [NtfsArea.fields, natLE_length, intLE_length, h.unused]),
   slice_chunk _ 5 rfl (by simp [NtfsArea.fields, natLE_length, intLE_length, h.unused]) (by simp [NtfsArea.fields, natLE_length, intLE_length, h.unused]),
   slice_chunk _ 6 rfl (by simp [NtfsArea.fields, natLE_length, intLE_length, h.unused]) (by simp [NtfsArea.fields, natLE_length, intLE_length, h.unused]),
   slice_chunk _ 7 rfl (by simp [NtfsArea.fields, natLE_length, intLE_length, h.unused]) (by simp [NtfsArea.fields, natLE_length, intLE_length, h.unused]),
   slice_chunk _ 8 rfl (by simp [NtfsArea.fields, natLE_length, intLE_length, h.unused]) (by simp [NtfsArea.fields, natLE_length, intLE_length, h.unused]),
   slice_chunk _ 9 rfl (by simp [NtfsArea.fields, natLE_length, intLE_length, h.unused]) (by simp [NtfsArea.fields, natLE_length, intLE_length, h.unused]),
   slice_chunk _ 10 rfl (by simp [NtfsArea.fields, natLE_length, intLE_length, h.unused]) (by simp [NtfsArea.fields, natLE_length, intLE_length, h.unused]),
   slice_chunk _ 11 rfl (by simp [NtfsArea.fields, natLE_length, intLE_length, h.unused]) (by simp [NtfsArea.fields, natLE_length, intLE_length, h.unused]),
   slice_chunk _ 12 rfl (by simp [NtfsArea.fields, natLE_length, intLE_length, h.unused]) (by simp [NtfsArea.fields, natLE_length, intLE_length, h.unused]),
   slice_chunk _ 13 rfl (by simp [NtfsArea.fields, natLE_length, intLE_length, h.unused]) (by simp [NtfsArea.fields, natLE_length, intLE_length, h.unused]),
   slice_chunk _ 14 rfl (by simp [NtfsArea.fields, natLE_length, intLE_length, h.unused]) (by simp [NtfsArea.fields, natLE_length, intLE_length, h.unused]),
   slice_chunk _ 15 rfl (by simp [NtfsArea.fields, natLE_length, intLE_length, h.unused]) (by simp [NtfsArea.fields, natLE_length, intLE_length, h.unused]),
   slice_chunk _ 16 rfl (by simp [NtfsArea.fields, natLE_length, intLE_length, h.unused]) (by simp [NtfsArea.fields, natLE_length, intLE_length, h.unused]),
   slice_chunk _ 17 rfl (by simp [NtfsArea.fields, natLE_length, intLE_length, h.unused]) (by simp [NtfsArea.fields, natLE_length, intLE_length, h.unused])⟩

set_option linter.unusedSimpArgs false in
private theorem open1_layout (s : OpenAttribute1) (h : s.Fits) :
    slice s.bytes 0 4 = natLE 4 s.link ∧
    slice s.bytes 4 8 = natLE 4 s.indexBytes ∧
    slice s.bytes 8 12 = natLE 4 s.type ∧
    slice s.bytes 12 16 = s.unused ∧
    slice s.bytes 16 24 = natLE 8 s.reference ∧
    slice s.bytes 24 32 = natLE 8 s.lsn ∧
    slice s.bytes 32 40 = s.pointer := by
  exact
  ⟨slice_chunk _ 0 rfl (by simp [OpenAttribute1.fields, natLE_length, intLE_length, h.unused, h.pointer]) (by simp [OpenAttribute1.fields, natLE_length, intLE_length, h.unused, h.pointer]),
   slice_chunk _ 1 rfl (by simp [OpenAttribute1.fields, natLE_length, intLE_length, h.unused, h.pointer]) (by simp [OpenAttribute1.fields, natLE_length, intLE_length, h.unused, h.pointer]),
   slice_chunk _ 2 rfl (by simp [OpenAttribute1.fields, natLE_length, intLE_length, h.unused, h.pointer]) (by simp [OpenAttribute1.fields, natLE_length, intLE_length, h.unused, h.pointer]),
   slice_chunk _ 3 rfl (by simp [OpenAttribute1.fields, natLE_length, intLE_length, h.unused, h.pointer]) (by simp [OpenAttribute1.fields, natLE_length, intLE_length, h.unused, h.pointer]),
   slice_chunk _ 4 rfl (by simp [OpenAttribute1.fields, natLE_length, intLE_length, h.unused, h.pointer]) (by simp [OpenAttribute1.fields, natLE_length, intLE_length, h.unused, h.pointer]),
   slice_chunk _ 5 rfl (by simp [OpenAttribute1.fields, natLE_length, intLE_length, h.unused, h.pointer]) (by simp [OpenAttribute1.fields, natLE_length, intLE_length, h.unused, h.pointer]),
   slice_chunk _ 6 rfl (by simp [OpenAttribute1.fields, natLE_length, intLE_length, h.unused, h.pointer]) (by simp [OpenAttribute1.fields, natLE_length, intLE_length, h.unused, h.pointer])⟩

set_option linter.unusedSimpArgs false in
private theorem open0_layout (s : OpenAttribute0) (h : s.Fits) :
    slice s.bytes 0 4 = natLE 4 s.link ∧
    slice s.bytes 4 8 = natLE 4 s.tableIndex ∧
    slice s.bytes 8 16 = natLE 8 s.reference ∧
    slice s.bytes 16 24 = natLE 8 s.lsn ∧
    slice s.bytes 24 28 = s.unused ∧
    slice s.bytes 28 32 = natLE 4 s.type ∧
    slice s.bytes 32 40 = s.pointer ∧
    slice s.bytes 40 44 = natLE 4 s.indexBytes := by
  exact
  ⟨slice_chunk _ 0 rfl (by simp [OpenAttribute0.fields, natLE_length, intLE_length, h.unused, h.pointer]) (by simp [OpenAttribute0.fields, natLE_length, intLE_length, h.unused, h.pointer]),
   slice_chunk _ 1 rfl (by simp [OpenAttribute0.fields, natLE_length, intLE_length, h.unused, h.pointer]) (by simp [OpenAttribute0.fields, natLE_length, intLE_length, h.unused, h.pointer]),
   slice_chunk _ 2 rfl (by simp [OpenAttribute0.fields, natLE_length, intLE_length, h.unused, h.pointer]) (by simp [OpenAttribute0.fields, natLE_length, intLE_length, h.unused, h.pointer]),
   slice_chunk _ 3 rfl (by simp [OpenAttribute0.fields, natLE_length, intLE_length, h.unused, h.pointer]) (by simp [OpenAttribute0.fields, natLE_length, intLE_length, h.unused, h.pointer]),
   slice_chunk _ 4 rfl (by simp [OpenAttribute0.fields, natLE_length, intLE_length, h.unused, h.pointer]) (by simp [OpenAttribute0.fields, natLE_length, intLE_length, h.unused, h.pointer]),
   slice_chunk _ 5 rfl (by simp [OpenAttribute0.fields, natLE_length, intLE_length, h.unused, h.pointer]) (by simp [OpenAttribute0.fields, natLE_length, intLE_length, h.unused, h.pointer]),
   slice_chunk _ 6 rfl (by simp [OpenAttribute0.fields, natLE_length, intLE_length, h.unused, h.pointer]) (by simp [OpenAttribute0.fields, natLE_length, intLE_length, h.unused, h.pointer]),
   slice_chunk _ 7 rfl (by simp [OpenAttribute0.fields, natLE_length, intLE_length, h.unused, h.pointer]) (by simp [OpenAttribute0.fields, natLE_length, intLE_length, h.unused, h.pointer])⟩

private theorem unpack_of {b : Bytes} {n v : Nat} (h : b = natLE n v) (hv : v < 256 ^ n) : unpackLE n b = .ok v := by
  subst h
  unfold unpackLE
  rw [if_pos (natLE_length n v), leNat_natLE_of_lt hv]

private theorem le_of {b : Bytes} {n v : Nat} (h : b = natLE n v) (hv : v < 256 ^ n) : leNat b = v := by
  subst h; exact leNat_natLE_of_lt hv

private theorem int_of {b : Bytes} {v : Int} (h : b = intLE 8 v) (hv : -2 ^ 63 ≤ v ∧ v < 2 ^ 63) : leInt b = v := by
  subst h; exact leInt_intLE (by omega) (by omega)

private theorem signed_of {b : Bytes} {v : Int} (h : b = intLE 8 v) (hv : -2 ^ 63 ≤ v ∧ v < 2 ^ 63) : unpackSigned b = .ok v := by
  unfold unpackSigned
  rw [if_pos (by rw [h, intLE_length]), int_of h hv]

/-! ### Restart areas -/

/-- C117: the fields of a restart area. -/
theorem C117_restart_area (s : Area) (h : s.Fits) :
    currentLsn s.bytes = .ok s.current ∧ logClients s.bytes = .ok s.count ∧ clientFreeList s.bytes = .ok s.free ∧ clientInUseList s.bytes = .ok s.inUse ∧
    areaFlags s.bytes = .ok s.flags ∧ sequenceNumberBits s.bytes = .ok s.sequenceBits ∧ areaLength s.bytes = .ok s.length ∧
    clientArrayOffset s.bytes = .ok s.arrayOffset ∧ areaFileSize s.bytes = .ok s.fileSize ∧ lastLsnDataLength s.bytes = .ok s.lastLength ∧
    recordHeaderLength s.bytes = .ok s.headerLength ∧ logPageDataOffset s.bytes = .ok s.dataOffset ∧ revisionNumber s.bytes = .ok s.revision := by
  obtain ⟨h_current, h_count, h_free, h_inUse, h_flags, h_sequenceBits, h_length, h_arrayOffset, h_fileSize, h_lastLength, h_headerLength, h_dataOffset,
    h_revision⟩ := area_layout s h
  exact ⟨unpack_of h_current h.current, unpack_of h_count h.count, unpack_of h_free h.free, unpack_of h_inUse h.inUse, unpack_of h_flags h.flags,
    unpack_of h_sequenceBits h.sequenceBits, unpack_of h_length h.length, unpack_of h_arrayOffset h.arrayOffset, signed_of h_fileSize h.fileSize,
    unpack_of h_lastLength h.lastLength, unpack_of h_headerLength h.headerLength, unpack_of h_dataOffset h.dataOffset, unpack_of h_revision h.revision⟩

/-- What a record of a client says. -/
def Says (buf : Bytes) (c : Client) : Prop :=
  clientOldestLsn buf = .ok c.oldest ∧ clientRestartLsn buf = .ok c.restart ∧ prevClient buf = .ok c.previous ∧ nextClient buf = .ok c.next ∧
  clientSequenceNumber buf = .ok c.sequence ∧ clientNameLength buf = .ok (Utf16.encode c.name).length ∧ clientName buf = .ok c.name

set_option linter.unusedSimpArgs false in
private theorem client_layout (c : Client) (h : c.Fits) (rest : Bytes) :
    slice (c.fields ++ [rest]).flatten 0 8 = natLE 8 c.oldest ∧
    slice (c.fields ++ [rest]).flatten 8 16 = natLE 8 c.restart ∧
    slice (c.fields ++ [rest]).flatten 16 18 = natLE 2 c.previous ∧
    slice (c.fields ++ [rest]).flatten 18 20 = natLE 2 c.next ∧
    slice (c.fields ++ [rest]).flatten 20 22 = natLE 2 c.sequence ∧
    slice (c.fields ++ [rest]).flatten 28 32 = natLE 4 (Utf16.encode c.name).length ∧
    slice (c.fields ++ [rest]).flatten 32 (32 + (Utf16.encode c.name).length) = Utf16.encode c.name :=
  ⟨slice_chunk _ 0 rfl (by simp [Client.fields, natLE_length, h.unused]) (by simp [Client.fields, natLE_length, h.unused]),
   slice_chunk _ 1 rfl (by simp [Client.fields, natLE_length, h.unused]) (by simp [Client.fields, natLE_length, h.unused]),
   slice_chunk _ 2 rfl (by simp [Client.fields, natLE_length, h.unused]) (by simp [Client.fields, natLE_length, h.unused]),
   slice_chunk _ 3 rfl (by simp [Client.fields, natLE_length, h.unused]) (by simp [Client.fields, natLE_length, h.unused]),
   slice_chunk _ 4 rfl (by simp [Client.fields, natLE_length, h.unused]) (by simp [Client.fields, natLE_length, h.unused]),
   slice_chunk _ 6 rfl (by simp [Client.fields, natLE_length, h.unused]) (by simp [Client.fields, natLE_length, h.unused]),
   slice_chunk _ 7 rfl (by simp [Client.fields, natLE_length, h.unused]) (by simp [Client.fields, natLE_length, h.unused])⟩

private theorem client_bytes (c : Client) (rest : Bytes) : (c.fields ++ [rest]).flatten = c.bytes ++ rest := by
  simp [Client.bytes]

private theorem client_length (c : Client) (h : c.Fits) : c.bytes.length = 160 := by
  have := h.size
  simp only [Client.bytes, Client.fields, List.flatten_cons, List.flatten_nil, List.length_append, natLE_length, h.unused, List.length_nil]
  omega

/-- C117: the fields and the name of a client, whatever follows its record. -/
theorem C117_client (c : Client) (h : c.Fits) (rest : Bytes) : clientRecord (c.bytes ++ rest) = .ok (c.bytes ++ rest) ∧ Says (c.bytes ++ rest) c := by
  obtain ⟨h1, h2, h3, h4, h5, h6, h7⟩ := client_layout c h rest
  rw [client_bytes] at h1 h2 h3 h4 h5 h6 h7
  have hs := h.size
  have hn := unpack_of h6 (by omega)
  refine ⟨?_, unpack_of h1 h.oldest, unpack_of h2 h.restart, unpack_of h3 h.previous, unpack_of h4 h.next, unpack_of h5 h.sequence, hn, ?_⟩
  · unfold clientRecord
    rw [hn]
    exact if_neg (by omega)
  · unfold clientName clientNameLength
    rw [hn]
    dsimp only
    rw [h7, (decode_encode h.name).2]

private theorem clientsLoop_says (area more : Bytes) (o : Nat) (l : List Client) (hl : ∀ c ∈ l, c.Fits) (i : Nat)
    (ha : area.drop (i * 160 + o) = (l.map Client.bytes).flatten ++ more) :
    (clientsLoop area o l.length i).err = none ∧ (clientsLoop area o l.length i).items.length = l.length ∧
    ∀ (k : Nat) c, l[k]? = some c → ∃ buf, (clientsLoop area o l.length i).items[k]? = some buf ∧ Says buf c := by
  induction l generalizing i with
  | nil => exact ⟨rfl, rfl, fun k c hk => by simp at hk⟩
  | cons c l ih =>
    have hc := hl c List.mem_cons_self
    rw [List.map_cons, List.flatten_cons, List.append_assoc] at ha
    obtain ⟨h1, h2⟩ := C117_client c hc ((l.map Client.bytes).flatten ++ more)
    have ih := ih (fun c hc => hl c (List.mem_cons_of_mem _ hc)) (i + 1) (by
      rw [show (i + 1) * 160 + o = i * 160 + o + 160 by omega, ← List.drop_drop, ha, List.drop_append_of_le_length (by rw [client_length c hc]; omega),
        List.drop_of_length_le (by rw [client_length c hc]; omega), List.nil_append])
    have e : clientsLoop area o (c :: l).length i = .cons (c.bytes ++ ((l.map Client.bytes).flatten ++ more)) (clientsLoop area o l.length (i + 1)) := by
      rw [List.length_cons, clientsLoop, ha, h1]
    rw [e]
    refine ⟨ih.1, by simp [Gen.cons, ih.2.1], ?_⟩
    intro k d hk
    cases k with
    | zero =>
      simp only [List.getElem?_cons_zero, Option.some.injEq] at hk
      subst hk
      exact ⟨_, rfl, h2⟩
    | succ k => exact ih.2.2 k d hk

/-- C117: the clients of a restart area are the ones in its array, in the same order, with their names. -/
theorem C117_clients (a : Area) (h : a.Fits) (l : List Client) (hl : ∀ c ∈ l, c.Fits) (ha : a.HasClients l) :
    (clients a.bytes).err = none ∧ (clients a.bytes).items.length = l.length ∧
    ∀ (k : Nat) c, l[k]? = some c → ∃ buf, (clients a.bytes).items[k]? = some buf ∧ Says buf c := by
  obtain ⟨h1, gap, more, h2, h3⟩ := ha
  have hf := C117_restart_area a h
  unfold clients
  rw [hf.2.1, hf.2.2.2.2.2.2.2.1, h1]
  dsimp only
  refine clientsLoop_says _ more _ l hl 0 ?_
  have hlen : (a.fields.take 13).flatten.length = 44 := by simp [Area.fields, natLE_length, intLE_length]
  have hb : a.bytes = ((a.fields.take 13).flatten ++ gap) ++ ((l.map Client.bytes).flatten ++ more) := by
    rw [List.append_assoc, ← h3]
    simp [Area.bytes, Area.fields]
  rw [hb, show 0 * 160 + a.arrayOffset = ((a.fields.take 13).flatten ++ gap).length by rw [List.length_append, hlen]; omega, List.drop_left]

/-- A client with the name "NTFS". -/
def demoClient : Client := ⟨0x1000, 0x2000, 0xFFFF, 0xFFFF, 1, zeros 6, Str.ofString "NTFS", zeros 120⟩
/-- An area with that client. -/
def demoArea : Area := ⟨0x2010, 1, 0xFFFF, 0, 2, 40, 224, 64, 65536, 64, 48, 64, 0, zeros 20 ++ (demoClient.bytes ++ zeros 8)⟩
theorem demoClient_fits : demoClient.Fits := by
  refine ⟨by decide, by decide, by decide, by decide, by decide, by decide, ?_, by decide +kernel⟩
  intro c hc
  have : c = 78 ∨ c = 84 ∨ c = 70 ∨ c = 83 := by
    simpa [demoClient, Str.ofString] using hc
  exact ⟨by omega, by omega⟩
example : demoArea.Fits ∧ demoArea.HasClients [demoClient] := by
  refine ⟨⟨by decide, by decide, by decide, by decide, by decide, by decide, by decide, by decide, by decide, by decide, by decide, by decide, by decide⟩, rfl,
    zeros 20, zeros 8, rfl, ?_⟩
  simp [demoArea]
example : restartArea demoArea.bytes 4096 = .ok demoArea.bytes := by decide +kernel

/-! ### Pages and records -/

/-- C117: the fields of a log record page; the field with the highest LSN is that of the offset in a tail copy. -/
theorem C117_page (s : Page) (h : s.Fits) (p : LogRecordPage) (hp : p.buf = s.bytes) :
    p.lastLsn = s.last ∧ p.fileOffset11 = leInt (natLE 8 s.last) ∧ (p.endOfUsa ≤ 60 → p.fileOffset2x = some s.fileOffset) ∧
    (60 < p.endOfUsa → p.fileOffset2x = none) ∧ p.flags = s.flags ∧ p.pageCount = s.count ∧ p.pagePosition = s.position ∧
    p.nextRecordOffset = s.next ∧ p.lastEndLsn = s.lastEnd := by
  obtain ⟨h_signature, h_usaOffset, h_usaCount, h_last, h_flags, h_count, h_position, h_next, h_unused, h_lastEnd, h_gap, h_fileOffset⟩ := page_layout s h
  unfold LogRecordPage.lastLsn LogRecordPage.fileOffset11 LogRecordPage.fileOffset2x LogRecordPage.flags LogRecordPage.pageCount LogRecordPage.pagePosition
    LogRecordPage.nextRecordOffset LogRecordPage.lastEndLsn
  rw [hp]
  refine ⟨le_of h_last h.last, by rw [h_last], fun hu => ?_, fun hu => if_neg (by omega), le_of h_flags h.flags, le_of h_count h.count,
    le_of h_position h.position, le_of h_next h.next, le_of h_lastEnd h.lastEnd⟩
  rw [if_pos hu]
  exact congrArg some (le_of h_fileOffset h.fileOffset)

/-- C117: the fields of the header of a log record. -/
theorem C117_record (s : RecordHeader) (h : s.Fits) :
    thisLsn s.bytes = s.this ∧ clientPreviousLsn s.bytes = s.previous ∧ clientUndoNextLsn s.bytes = s.undoNext ∧ clientDataLength s.bytes = s.length ∧
    clientId s.bytes = s.client ∧ recordType s.bytes = s.type ∧ transactionId s.bytes = s.transaction ∧ recordFlags s.bytes = s.flags := by
  obtain ⟨h_this, h_previous, h_undoNext, h_length, h_client, h_type, h_transaction, h_flags, h_unused⟩ := header_layout s h
  exact ⟨le_of h_this h.this, le_of h_previous h.previous, le_of h_undoNext h.undoNext, le_of h_length h.length, le_of h_client h.client,
    le_of h_type h.type, le_of h_transaction h.transaction, le_of h_flags h.flags⟩

/-- A page and a record. -/
def demoPage : Page := ⟨[0x52, 0x43, 0x52, 0x44], 40, 9, 0x2010, 1, 1, 1, 0x900, zeros 6, 0x2010, zeros 20, 7, zeros 448⟩
def demoHeader : RecordHeader := ⟨0x2010, 0x2000, 0x2000, 40, 0, 1, 24, 0, zeros 6, zeros 40⟩
example : demoPage.Fits :=
  ⟨by decide, by decide, by decide, by decide, by decide, by decide, by decide, by decide, by decide, by decide, by decide, by decide⟩
example : demoHeader.Fits := ⟨by decide, by decide, by decide, by decide, by decide, by decide, by decide, by decide, by decide⟩
example : logRecordHeader demoHeader.bytes 48 = .ok demoHeader.bytes := by decide +kernel

/-! ### The restart area of NTFS -/

private theorem ntfs_length (s : NtfsArea) (h : s.Fits) : 112 ≤ s.bytes.length := by
  simp only [NtfsArea.bytes, NtfsArea.fields, List.flatten_cons, List.flatten_nil, List.length_append, natLE_length, intLE_length, h.unused]
  omega

/-- C117: the fields of the restart area of NTFS. -/
theorem C117_ntfs_area (s : NtfsArea) (h : s.Fits) :
    areaMajorVersion s.bytes = s.major ∧ areaMinorVersion s.bytes = s.minor ∧ startOfCheckpointLsn s.bytes = s.checkpoint ∧
    openAttributeTableLsn s.bytes = s.openAttributes ∧ attributeNamesLsn s.bytes = s.names ∧ dirtyPageTableLsn s.bytes = s.dirtyPages ∧
    transactionTableLsn s.bytes = s.transactions ∧ openAttributeTableLength s.bytes = s.openAttributesLength ∧
    attributeNamesLength s.bytes = s.namesLength ∧ dirtyPageTableLength s.bytes = s.dirtyPagesLength ∧
    transactionTableLength s.bytes = s.transactionsLength ∧ usnJournalRestartOffset s.bytes = some s.usnStart ∧ areaLastLsn s.bytes = some s.last ∧
    bytesPerCluster s.bytes = some s.cluster ∧ usnJournalReference s.bytes = some s.journal ∧ LogFile.usnBase s.bytes = some s.usnBase ∧
    areaOldestLsn s.bytes = some s.oldest := by
  obtain ⟨h_major, h_minor, h_checkpoint, h_openAttributes, h_names, h_dirtyPages, h_transactions, h_openAttributesLength, h_namesLength, h_dirtyPagesLength,
    h_transactionsLength, h_usnStart, h_last, h_cluster, h_unused, h_journal, h_usnBase, h_oldest⟩ := ntfs_layout s h
  have hl := ntfs_length s h
  unfold usnJournalRestartOffset areaLastLsn bytesPerCluster usnJournalReference LogFile.usnBase areaOldestLsn
  rw [if_pos (by omega), if_pos (by omega), if_pos (by omega), if_pos (by omega), if_pos (by omega), if_pos (by omega)]
  exact ⟨le_of h_major h.major, le_of h_minor h.minor, le_of h_checkpoint h.checkpoint, le_of h_openAttributes h.openAttributes, le_of h_names h.names,
    le_of h_dirtyPages h.dirtyPages, le_of h_transactions h.transactions, le_of h_openAttributesLength h.openAttributesLength,
    le_of h_namesLength h.namesLength, le_of h_dirtyPagesLength h.dirtyPagesLength, le_of h_transactionsLength h.transactionsLength,
    congrArg some (int_of h_usnStart h.usnStart), congrArg some (le_of h_last h.last), congrArg some (le_of h_cluster h.cluster),
    congrArg some (le_of h_journal h.journal), congrArg some (int_of h_usnBase h.usnBase), congrArg some (le_of h_oldest h.oldest)⟩

/-- C117: an area that ends early, as older versions of NTFS write it, has the fields that are there and none of the others. -/
theorem C117_ntfs_area_cut (s : NtfsArea) (h : s.Fits) (n : Nat) (h64 : 64 ≤ n) (hn : n ≤ 112) :
    let buf := s.bytes.take n
    openAttributeTableLsn buf = s.openAttributes ∧ transactionTableLength buf = s.transactionsLength ∧
    usnJournalRestartOffset buf = (if 72 ≤ n then some s.usnStart else none) ∧ areaLastLsn buf = (if 80 ≤ n then some s.last else none) ∧
    bytesPerCluster buf = (if 84 ≤ n then some s.cluster else none) ∧ usnJournalReference buf = (if 96 ≤ n then some s.journal else none) ∧
    LogFile.usnBase buf = (if 104 ≤ n then some s.usnBase else none) ∧ areaOldestLsn buf = (if 112 ≤ n then some s.oldest else none) := by
  have hl := ntfs_length s h
  have hlen : (s.bytes.take n).length = n := by rw [List.length_take]; omega
  have hsl : ∀ i j, j ≤ n → slice (s.bytes.take n) i j = slice s.bytes i j := by
    intro i j hj
    unfold slice
    rw [List.drop_take, List.take_take]
    congr 1
    omega
  obtain ⟨h_major, h_minor, h_checkpoint, h_openAttributes, h_names, h_dirtyPages, h_transactions, h_openAttributesLength, h_namesLength, h_dirtyPagesLength,
    h_transactionsLength, h_usnStart, h_last, h_cluster, h_unused, h_journal, h_usnBase, h_oldest⟩ := ntfs_layout s h
  dsimp only
  refine ⟨le_of ((hsl _ _ (by omega)).trans h_openAttributes) h.openAttributes, le_of ((hsl _ _ (by omega)).trans h_transactionsLength) h.transactionsLength,
    ?_, ?_, ?_, ?_, ?_, ?_⟩
  · unfold usnJournalRestartOffset
    rw [hlen]
    by_cases hc : 72 ≤ n
    · rw [if_pos hc, if_pos hc, hsl _ _ hc]; exact congrArg some (int_of h_usnStart h.usnStart)
    · rw [if_neg hc, if_neg hc]
  · unfold areaLastLsn
    rw [hlen]
    by_cases hc : 80 ≤ n
    · rw [if_pos hc, if_pos hc]; exact congrArg some (le_of ((hsl _ _ hc).trans h_last) h.last)
    · rw [if_neg hc, if_neg hc]
  · unfold bytesPerCluster
    rw [hlen]
    by_cases hc : 84 ≤ n
    · rw [if_pos hc, if_pos hc]; exact congrArg some (le_of ((hsl _ _ hc).trans h_cluster) h.cluster)
    · rw [if_neg hc, if_neg hc]
  · unfold usnJournalReference
    rw [hlen]
    by_cases hc : 96 ≤ n
    · rw [if_pos hc, if_pos hc]; exact congrArg some (le_of ((hsl _ _ hc).trans h_journal) h.journal)
    · rw [if_neg hc, if_neg hc]
  · unfold LogFile.usnBase
    rw [hlen]
    by_cases hc : 104 ≤ n
    · rw [if_pos hc, if_pos hc, hsl _ _ hc]; exact congrArg some (int_of h_usnBase h.usnBase)
    · rw [if_neg hc, if_neg hc]
  · unfold areaOldestLsn
    rw [hlen]
    by_cases hc : 112 ≤ n
    · rw [if_pos hc, if_pos hc]; exact congrArg some (le_of ((hsl _ _ hc).trans h_oldest) h.oldest)
    · rw [if_neg hc, if_neg hc]

/-- A restart area of NTFS. -/
def demoNtfs : NtfsArea := ⟨1, 0, 0x2000, 0x2010, 0x2020, 0x2030, 0x2040, 92, 40, 60, 44, -8, 0x2050, 4096, zeros 4, 0x1000000000026, 1024, 0x1FF0, []⟩
example : demoNtfs.Fits :=
  ⟨by decide, by decide, by decide, by decide, by decide, by decide, by decide, by decide, by decide, by decide, by decide, by decide, by decide, by decide,
   by decide, by decide, by decide, by decide⟩

/-! ### The table of open attributes -/

/-- C117: the fields of an entry of the table of open attributes, in either version. -/
theorem C117_open_attribute1 (s : OpenAttribute1) (h : s.Fits) :
    openAttributeEntry1 s.bytes = .ok s.bytes ∧ allocatedOrNextFree s.bytes = s.link ∧ bytesPerIndexBuffer1 s.bytes = s.indexBytes ∧
    openTypeCode1 s.bytes = s.type ∧ openReference1 s.bytes = s.reference ∧ openLsn1 s.bytes = s.lsn ∧
    ∀ version, 1 ≤ version → openAttributeReference version s.bytes = .ok s.reference := by
  obtain ⟨h_link, h_indexBytes, h_type, h_unused, h_reference, h_lsn, h_pointer⟩ := open1_layout s h
  have hl : 40 ≤ s.bytes.length := by
    simp only [OpenAttribute1.bytes, OpenAttribute1.fields, List.flatten_cons, List.flatten_nil, List.length_append, natLE_length, h.unused, h.pointer]
    omega
  refine ⟨if_neg (by omega), le_of h_link h.link, le_of h_indexBytes h.indexBytes, le_of h_type h.type, le_of h_reference h.reference, le_of h_lsn h.lsn, ?_⟩
  intro version hv
  unfold openAttributeReference
  rw [if_pos hv, if_neg (by omega)]
  exact congrArg Except.ok (le_of h_reference h.reference)

/-- C117: the same, for version 0.0. -/
theorem C117_open_attribute0 (s : OpenAttribute0) (h : s.Fits) :
    openAttributeEntry0 s.bytes = .ok s.bytes ∧ allocatedOrNextFree s.bytes = s.link ∧ openTableIndex0 s.bytes = s.tableIndex ∧
    openReference0 s.bytes = s.reference ∧ openLsn0 s.bytes = s.lsn ∧ openTypeCode0 s.bytes = s.type ∧ bytesPerIndexBuffer0 s.bytes = s.indexBytes ∧
    openAttributeReference 0 s.bytes = .ok s.reference := by
  obtain ⟨h_link, h_tableIndex, h_reference, h_lsn, h_unused, h_type, h_pointer, h_indexBytes⟩ := open0_layout s h
  have hl : 44 ≤ s.bytes.length := by
    simp only [OpenAttribute0.bytes, OpenAttribute0.fields, List.flatten_cons, List.flatten_nil, List.length_append, natLE_length, h.unused, h.pointer]
    omega
  refine ⟨if_neg (by omega), le_of h_link h.link, le_of h_tableIndex h.tableIndex, le_of h_reference h.reference, le_of h_lsn h.lsn, le_of h_type h.type,
    le_of h_indexBytes h.indexBytes, ?_⟩
  unfold openAttributeReference
  rw [if_neg (by omega), if_neg (by omega)]
  exact congrArg Except.ok (le_of h_reference h.reference)

/-- C117: what is too short to be an entry is refused. -/
theorem C117_open_attribute_short (raw : Bytes) :
    (raw.length < 40 → openAttributeEntry1 raw = .error .ClientException) ∧ (raw.length < 44 → openAttributeEntry0 raw = .error .ClientException) :=
  ⟨fun h => if_pos h, fun h => if_pos h⟩

/-- Entries. -/
def demoOpen1 : OpenAttribute1 := ⟨0xFFFFFFFF, 4096, 0xA0, zeros 4, 0x5000000000005, 0x2000, zeros 8, []⟩
def demoOpen0 : OpenAttribute0 := ⟨0xFFFFFFFF, 0x18, 0x5000000000005, 0x2000, zeros 4, 0xA0, zeros 8, 4096, []⟩
example : demoOpen1.Fits := ⟨by decide, by decide, by decide, by decide, by decide, by decide, by decide⟩
example : demoOpen0.Fits := ⟨by decide, by decide, by decide, by decide, by decide, by decide, by decide, by decide⟩

end Verif.Props.LogFields
