/-
C113: the fields of the boot region of exFAT.

For every boot region that is made of the fields in the exFAT specification, with any values that fit into them, each question about a
field of the boot sector gets the value of this field.  Two other claims are false:

* The signature of an extended boot sector is at the end of the sector; the code reads it at byte 508, which is the end of sectors of 512 bytes
  only (`C113_extended_partial`, `C113_extended_elsewhere`).
* The OEM parameters are in the tenth sector (number 9); the code reads the next one, which is reserved (`C113_oem_elsewhere`): whatever the OEM
  parameters are, they are never given (`C113_oem_ignored`).
-/
import Verif.Model.ExFAT.Fields
import Verif.Spec.BootFields
import Verif.Proof.Chunks
import Verif.Props.C67
namespace Verif.Props.BootFieldsEx
open Verif.ExFAT Verif.Spec.BootFields Verif.Proof.Chunks



set_option linter.unusedSimpArgs false in
private theorem layoutEx (r : Region) (size : Nat) (h : r.Fits size) :
    slice r.bytes 0 3 = r.boot.jump ∧
    slice r.bytes 3 11 = [0x45, 0x58, 0x46, 0x41, 0x54, 0x20, 0x20, 0x20] ∧
    slice r.bytes 11 64 = zeros 53 ∧
    u64 r.bytes 64 = r.boot.partitionOffset ∧
    u64 r.bytes 72 = r.boot.volumeLength ∧
    u32 r.bytes 80 = r.boot.tableOffset ∧
    u32 r.bytes 84 = r.boot.tableLength ∧
    u32 r.bytes 88 = r.boot.heapOffset ∧
    u32 r.bytes 92 = r.boot.clusters ∧
    u32 r.bytes 96 = r.boot.rootCluster ∧
    u32 r.bytes 100 = r.boot.serial ∧
    u8 r.bytes 104 = r.boot.minor ∧
    u8 r.bytes 105 = r.boot.major ∧
    u16 r.bytes 106 = r.boot.flags ∧
    u8 r.bytes 108 = r.boot.sectorShift ∧
    u8 r.bytes 109 = r.boot.clusterShift ∧
    u8 r.bytes 110 = r.boot.tables ∧
    u8 r.bytes 111 = r.boot.drive ∧
    u8 r.bytes 112 = r.boot.percent ∧
    slice r.bytes 113 120 = r.boot.reserved ∧
    slice r.bytes 120 510 = r.boot.code ∧
    slice r.bytes 510 512 = [0x55, 0xAA] := by
  have at_ : ∀ k c, r.boot.fields[k]? = some c → (r.boot.fields ++ [r.padding] ++ r.extended ++ [r.oem, r.spare, r.checksums])[k]? = some c :=
    fun k c hc => by
      have hk : k < r.boot.fields.length := (List.getElem?_eq_some_iff.mp hc).1
      rw [List.append_assoc, List.append_assoc, List.getElem?_append_left hk, hc]
  have pre : ∀ k, k ≤ 22 → (r.boot.fields ++ [r.padding] ++ r.extended ++ [r.oem, r.spare, r.checksums]).take k = r.boot.fields.take k :=
    fun k hk => by
      rw [List.append_assoc, List.append_assoc, List.take_append_of_le_length (by simpa [BootEx.fields] using hk)]
  exact
  ⟨slice_chunk _ 0 (at_ 0 _ rfl) (by rw [pre 0 (by decide)]; simp [BootEx.fields, natLE_length, zeros_length, h.boot.jump, h.boot.reserved, h.boot.code]) (by rw [h.boot.jump]),
   slice_chunk _ 1 (at_ 1 _ rfl) (by rw [pre 1 (by decide)]; simp [BootEx.fields, natLE_length, zeros_length, h.boot.jump, h.boot.reserved, h.boot.code]) (rfl),
   slice_chunk _ 2 (at_ 2 _ rfl) (by rw [pre 2 (by decide)]; simp [BootEx.fields, natLE_length, zeros_length, h.boot.jump, h.boot.reserved, h.boot.code]) (by rw [zeros_length]),
   u64_chunk _ 3 (at_ 3 _ rfl) h.boot.partitionOffset (by rw [pre 3 (by decide)]; simp [BootEx.fields, natLE_length, zeros_length, h.boot.jump, h.boot.reserved, h.boot.code]),
   u64_chunk _ 4 (at_ 4 _ rfl) h.boot.volumeLength (by rw [pre 4 (by decide)]; simp [BootEx.fields, natLE_length, zeros_length, h.boot.jump, h.boot.reserved, h.boot.code]),
   u32_chunk _ 5 (at_ 5 _ rfl) h.boot.tableOffset (by rw [pre 5 (by decide)]; simp [BootEx.fields, natLE_length, zeros_length, h.boot.jump, h.boot.reserved, h.boot.code]),
   u32_chunk _ 6 (at_ 6 _ rfl) h.boot.tableLength (by rw [pre 6 (by decide)]; simp [BootEx.fields, natLE_length, zeros_length, h.boot.jump, h.boot.reserved, h.boot.code]),
   u32_chunk _ 7 (at_ 7 _ rfl) h.boot.heapOffset (by rw [pre 7 (by decide)]; simp [BootEx.fields, natLE_length, zeros_length, h.boot.jump, h.boot.reserved, h.boot.code]),
   u32_chunk _ 8 (at_ 8 _ rfl) h.boot.clusters (by rw [pre 8 (by decide)]; simp [BootEx.fields, natLE_length, zeros_length, h.boot.jump, h.boot.reserved, h.boot.code]),
   u32_chunk _ 9 (at_ 9 _ rfl) h.boot.rootCluster (by rw [pre 9 (by decide)]; simp [BootEx.fields, natLE_length, zeros_length, h.boot.jump, h.boot.reserved, h.boot.code]),
   u32_chunk _ 10 (at_ 10 _ rfl) h.boot.serial (by rw [pre 10 (by decide)]; simp [BootEx.fields, natLE_length, zeros_length, h.boot.jump, h.boot.reserved, h.boot.code]),
   u8_chunk _ 11 (at_ 11 _ rfl) h.boot.minor (by rw [pre 11 (by decide)]; simp [BootEx.fields, natLE_length, zeros_length, h.boot.jump, h.boot.reserved, h.boot.code]),
   u8_chunk _ 12 (at_ 12 _ rfl) h.boot.major (by rw [pre 12 (by decide)]; simp [BootEx.fields, natLE_length, zeros_length, h.boot.jump, h.boot.reserved, h.boot.code]),
   u16_chunk _ 13 (at_ 13 _ rfl) h.boot.flags (by rw [pre 13 (by decide)]; simp [BootEx.fields, natLE_length, zeros_length, h.boot.jump, h.boot.reserved, h.boot.code]),
   u8_chunk _ 14 (at_ 14 _ rfl) h.boot.sectorShift (by rw [pre 14 (by decide)]; simp [BootEx.fields, natLE_length, zeros_length, h.boot.jump, h.boot.reserved, h.boot.code]),
   u8_chunk _ 15 (at_ 15 _ rfl) h.boot.clusterShift (by rw [pre 15 (by decide)]; simp [BootEx.fields, natLE_length, zeros_length, h.boot.jump, h.boot.reserved, h.boot.code]),
   u8_chunk _ 16 (at_ 16 _ rfl) h.boot.tables (by rw [pre 16 (by decide)]; simp [BootEx.fields, natLE_length, zeros_length, h.boot.jump, h.boot.reserved, h.boot.code]),
   u8_chunk _ 17 (at_ 17 _ rfl) h.boot.drive (by rw [pre 17 (by decide)]; simp [BootEx.fields, natLE_length, zeros_length, h.boot.jump, h.boot.reserved, h.boot.code]),
   u8_chunk _ 18 (at_ 18 _ rfl) h.boot.percent (by rw [pre 18 (by decide)]; simp [BootEx.fields, natLE_length, zeros_length, h.boot.jump, h.boot.reserved, h.boot.code]),
   slice_chunk _ 19 (at_ 19 _ rfl) (by rw [pre 19 (by decide)]; simp [BootEx.fields, natLE_length, zeros_length, h.boot.jump, h.boot.reserved, h.boot.code]) (by rw [h.boot.reserved]),
   slice_chunk _ 20 (at_ 20 _ rfl) (by rw [pre 20 (by decide)]; simp [BootEx.fields, natLE_length, zeros_length, h.boot.jump, h.boot.reserved, h.boot.code]) (by rw [h.boot.code]),
   slice_chunk _ 21 (at_ 21 _ rfl) (by rw [pre 21 (by decide)]; simp [BootEx.fields, natLE_length, zeros_length, h.boot.jump, h.boot.reserved, h.boot.code]) (rfl)⟩

private theorem bit_shift (v i : Nat) : decide ((v >>> i) &&& 1 > 0) = v.testBit i := by
  rw [Nat.testBit_eq_decide_div_mod_eq, Nat.shiftRight_eq_div_pow, Nat.and_one_is_mod]
  have := Nat.mod_two_eq_zero_or_one (v / 2 ^ i)
  rcases this with h | h <;> simp [h]

private theorem shift_of {b : BR} {r : Region} {size : Nat} (h : r.Fits size) (hs : u8 b.buf 108 = r.boot.sectorShift) : b.bytesPerSector = .ok size := by
  obtain ⟨he, h1, h2⟩ := h.shift
  unfold BR.bytesPerSector
  rw [hs, if_neg (by omega), Nat.one_shiftLeft, he]

/-- **The fields of the boot sector.** -/
theorem C113_fields (r : Region) (size : Nat) (h : r.Fits size) (b : BR) (hbuf : b.buf = r.bytes) :
    b.buf.length = 12 * size ∧ b.jmpBoot = r.boot.jump ∧ b.fsName = [0x45, 0x58, 0x46, 0x41, 0x54, 0x20, 0x20, 0x20] ∧ b.mustBeZero = zeros 53 ∧
    b.partitionOffset = r.boot.partitionOffset ∧ b.volumeLength = r.boot.volumeLength ∧ b.fatOffset = r.boot.tableOffset ∧
    b.fatLength = r.boot.tableLength ∧ b.clusterHeapOffset = r.boot.heapOffset ∧ b.clusterCount = r.boot.clusters ∧
    b.firstClusterOfRootDirectory = r.boot.rootCluster ∧ b.volumeSerialNumber = r.boot.serial ∧
    b.fileSystemRevision = (r.boot.major, r.boot.minor) ∧
    b.volumeFlags = (r.boot.flags.testBit 0, r.boot.flags.testBit 1, r.boot.flags.testBit 2, r.boot.flags.testBit 3) ∧
    b.bytesPerSector = .ok (2 ^ r.boot.sectorShift) ∧
    b.sectorsPerCluster =
      (if r.boot.clusterShift + r.boot.sectorShift ≤ 25 then .ok (2 ^ r.boot.clusterShift) else .error .BootRegionException) ∧
    b.numberOfFats = r.boot.tables ∧ b.driveSelect = r.boot.drive ∧
    b.percentInUse = (if r.boot.percent ≤ 100 then some r.boot.percent else none) ∧
    b.reserved = r.boot.reserved ∧ b.bootCode = r.boot.code ∧ b.signature = [0x55, 0xAA] := by
  obtain ⟨h_jump, h_NAME, h_ZERO, h_partitionOffset, h_volumeLength, h_tableOffset, h_tableLength, h_heapOffset, h_clusters, h_rootCluster, h_serial, h_minor, h_major, h_flags, h_sectorShift, h_clusterShift, h_tables, h_drive, h_percent, h_reserved, h_code, h_SIG⟩ := layoutEx r size h
  have hlen : b.buf.length = 12 * size := by
    have he : (r.extended.map List.length).sum = 8 * size := by
      have := List.map_congr_left (l := r.extended) (f := List.length) (g := fun _ => size) h.extended
      rw [this, List.map_const', h.count, List.sum_replicate_nat]
    have hsz : 512 ≤ size := by
      obtain ⟨h1, h2, -⟩ := h.shift
      rw [h1]; exact Nat.pow_le_pow_right (n := 2) (i := 9) (by decide) h2
    rw [hbuf, Region.bytes, List.length_flatten, List.map_append, List.map_append, List.map_append, List.sum_append, List.sum_append,
      List.sum_append, he]
    simp [BootEx.fields, natLE_length, zeros_length, h.boot.jump, h.boot.reserved, h.boot.code, h.padding, h.oem, h.spare, h.checksums]
    omega
  rw [← hbuf] at *
  refine ⟨hlen, h_jump, h_NAME, h_ZERO, h_partitionOffset, h_volumeLength, h_tableOffset, h_tableLength, h_heapOffset, h_clusters, h_rootCluster,
    h_serial, ?_, ?_, ?_, ?_, h_tables, h_drive, ?_, h_reserved, h_code, h_SIG⟩
  · unfold BR.fileSystemRevision; rw [h_major, h_minor]
  · unfold BR.volumeFlags; rw [h_flags]
    have h0 := bit_shift r.boot.flags 0
    rw [Nat.shiftRight_zero] at h0
    rw [h0, bit_shift, bit_shift, bit_shift]
  · rw [shift_of h h_sectorShift, h.shift.1]
  · unfold BR.sectorsPerCluster; rw [h_sectorShift, h_clusterShift, Nat.one_shiftLeft]
    by_cases hc : r.boot.clusterShift + r.boot.sectorShift ≤ 25
    · rw [if_neg (by omega), if_pos hc]
    · rw [if_pos (by omega), if_neg hc]
  · unfold BR.percentInUse; rw [h_percent]
    by_cases hc : r.boot.percent ≤ 100
    · rw [if_neg (by omega), if_pos hc]
    · rw [if_pos (by omega), if_neg hc]

private theorem part_slice (a c d : Bytes) {o i j : Nat} (ho : a.length = o) (hj : j ≤ c.length) :
    slice ((a ++ c) ++ d) (o + i) (o + j) = slice c i j := by
  rw [List.append_assoc, Verif.Props.ExFAT.slice_skip (by omega), ho, Verif.Props.ExFAT.slice_prefix (by omega)]
  congr 1 <;> omega

private theorem boot_length (r : Region) (size : Nat) (h : r.Fits size) : (r.boot.fields ++ [r.padding]).flatten.length = size := by
  have hsz : 512 ≤ size := by
    obtain ⟨h1, h2, -⟩ := h.shift
    rw [h1]; exact Nat.pow_le_pow_right (n := 2) (i := 9) (by decide) h2
  simp [BootEx.fields, natLE_length, zeros_length, h.boot.jump, h.boot.reserved, h.boot.code, h.padding]
  omega

private theorem flat_length (size : Nat) : ∀ l : List Bytes, (∀ s ∈ l, s.length = size) → l.flatten.length = l.length * size
  | [], _ => by simp
  | a :: l, h => by
    rw [List.flatten_cons, List.length_append, flat_length size l (fun s hs => h s (List.mem_cons_of_mem _ hs)), h a (List.mem_cons_self ..),
      List.length_cons, Nat.succ_mul, Nat.add_comm]

private theorem extended_slice (r : Region) (size : Nat) (h : r.Fits size) (n : Nat) (s : Bytes) (hs : r.extended[n]? = some s) {i j : Nat} (hj : j ≤ size) :
    slice r.bytes (size * (n + 1) + i) (size * (n + 1) + j) = slice s i j := by
  obtain ⟨hn, he⟩ := List.getElem?_eq_some_iff.mp hs
  have hsplit : r.extended = r.extended.take n ++ s :: r.extended.drop (n + 1) := by
    rw [← he, List.getElem_cons_drop, List.take_append_drop]
  have hsl : s.length = size := h.extended s (List.mem_of_getElem? hs)
  have hpre : ((r.boot.fields ++ [r.padding]).flatten ++ (r.extended.take n).flatten).length = size * (n + 1) := by
    rw [List.length_append, boot_length r size h, flat_length size _ (fun t ht => h.extended t (List.mem_of_mem_take ht)), List.length_take,
      Nat.min_eq_left (Nat.le_of_lt hn), Nat.mul_comm, Nat.mul_succ, Nat.add_comm]
  have hb : r.bytes = (((r.boot.fields ++ [r.padding]).flatten ++ (r.extended.take n).flatten) ++ s) ++
      ((r.extended.drop (n + 1)).flatten ++ [r.oem, r.spare, r.checksums].flatten) := by
    unfold Region.bytes
    conv => lhs; rw [hsplit]
    simp only [List.flatten_append, List.flatten_cons, List.append_assoc]
  rw [hb, part_slice _ s _ hpre (by omega)]

private theorem spare_slice (r : Region) (size : Nat) (h : r.Fits size) {i j : Nat} (hj : j ≤ size) :
    slice r.bytes (size * 10 + i) (size * 10 + j) = slice r.spare i j := by
  have hpre : ((r.boot.fields ++ [r.padding]).flatten ++ r.extended.flatten ++ r.oem).length = size * 10 := by
    rw [List.length_append, List.length_append, boot_length r size h, flat_length size _ h.extended, h.count, h.oem]
    omega
  have hb : r.bytes = (((r.boot.fields ++ [r.padding]).flatten ++ r.extended.flatten ++ r.oem) ++ r.spare) ++ r.checksums := by
    unfold Region.bytes
    simp only [List.flatten_append, List.flatten_cons, List.flatten_nil, List.append_assoc, List.append_nil]
  rw [hb, part_slice _ r.spare _ hpre (by rw [h.spare]; exact hj)]

private theorem size_ge {r : Region} {size : Nat} (h : r.Fits size) : 512 ≤ size := by
  obtain ⟨h1, h2, -⟩ := h.shift
  rw [h1]; exact Nat.pow_le_pow_right (n := 2) (i := 9) (by decide) h2

/-- **Extended boot sectors.**  For sectors of any size, what is given as the signature of an extended boot sector is at its byte 508. -/
theorem C113_extended_elsewhere (r : Region) (size : Nat) (h : r.Fits size) (b : BR) (hbuf : b.buf = r.bytes) (n : Nat) (s : Bytes)
    (hs : r.extended[n]? = some s) : b.ebsSignature (n + 1) = .ok ((s.drop 508).take 4) := by
  have hl := layoutEx r size h
  have hss : u8 r.bytes 108 = r.boot.sectorShift := hl.2.2.2.2.2.2.2.2.2.2.2.2.2.2.1
  have hn : n < 8 := by
    rw [← h.count]; exact (List.getElem?_eq_some_iff.mp hs).1
  unfold BR.ebsSignature
  rw [if_neg (by omega), shift_of h (by rw [hbuf]; exact hss)]
  dsimp only
  have he : (((n : Int) + 1).toNat) = n + 1 := by omega
  rw [he, hbuf, extended_slice r size h n s hs (size_ge h)]
  rfl

/-- **Extended boot sectors, sectors of 512 bytes.**  What is given is the signature: the last four bytes of the extended boot sector.
Missing: sectors of more than 512 bytes, for which this is false (`C113_extended_refuted`). -/
theorem C113_extended_partial (r : Region) (h : r.Fits 512) (b : BR) (hbuf : b.buf = r.bytes) (n : Nat) (s : Bytes)
    (hs : r.extended[n]? = some s) : b.ebsSignature (n + 1) = .ok (s.drop (s.length - 4)) := by
  have hsl : s.length = 512 := h.extended s (List.mem_of_getElem? hs)
  rw [C113_extended_elsewhere r 512 h b hbuf n s hs, hsl, List.take_of_length_le (by rw [List.length_drop, hsl]; decide)]

/-- There are eight extended boot sectors, with the numbers 1 to 8; other numbers are refused. -/
theorem C113_extended_numbers (b : BR) (n : Int) (hn : n < 1 ∨ 8 < n) : b.ebsSignature n = .error .ValueError := by
  unfold BR.ebsSignature
  rw [if_pos hn]

/-- **OEM parameters.**  What is given as the type of the OEM parameters is in the reserved sector after them. -/
theorem C113_oem_elsewhere (r : Region) (size : Nat) (h : r.Fits size) (b : BR) (hbuf : b.buf = r.bytes) :
    b.oemGuid = .ok (r.spare.take 16) := by
  have hss : u8 r.bytes 108 = r.boot.sectorShift := (layoutEx r size h).2.2.2.2.2.2.2.2.2.2.2.2.2.2.1
  have hge := size_ge h
  unfold BR.oemGuid
  rw [shift_of h (by rw [hbuf]; exact hss)]
  dsimp only
  have := spare_slice r size h (i := 0) (j := 16) (by omega)
  rw [Nat.add_zero] at this
  rw [hbuf, this]
  have ht : slice r.spare 0 16 = r.spare.take 16 := rfl
  rw [ht, if_neg]
  rw [List.length_take, h.spare]
  omega

/-- If the reserved sector begins with the type of flash parameters and with seven numbers, these numbers are given. -/
theorem C113_oem_in_reserved (r : Region) (size : Nat) (h : r.Fits size) (b : BR) (hbuf : b.buf = r.bytes) (p : List Nat) (rest : Bytes)
    (hp : p.length = 7) (hfit : ∀ v ∈ p, v < 2 ^ 32) (hspare : r.spare = (BR.flashGuid :: p.map (natLE 4) ++ [rest]).flatten) :
    b.oemFlashParameters = .ok (some p) := by
  have hss : u8 r.bytes 108 = r.boot.sectorShift := (layoutEx r size h).2.2.2.2.2.2.2.2.2.2.2.2.2.2.1
  have hge := size_ge h
  match p, hp with
  | [a, c, d, e, f, g, k], _ =>
    have hg : r.spare.take 16 = BR.flashGuid := by
      rw [hspare, List.cons_append, List.flatten_cons]
      exact List.take_left' rfl
    have hq : slice r.spare 16 44 = [natLE 4 a, natLE 4 c, natLE 4 d, natLE 4 e, natLE 4 f, natLE 4 g, natLE 4 k].flatten := by
      have := slice_chunk [BR.flashGuid, [natLE 4 a, natLE 4 c, natLE 4 d, natLE 4 e, natLE 4 f, natLE 4 g, natLE 4 k].flatten, rest] 1 (i := 16) (j := 44)
        rfl rfl (by simp [natLE_length])
      rw [← this, hspare]
      simp
    unfold BR.oemFlashParameters
    rw [C113_oem_elsewhere r size h b hbuf, hg, shift_of h (by rw [hbuf]; exact hss)]
    dsimp only
    rw [if_neg (fun hne => hne rfl), hbuf, spare_slice r size h (by omega), hq, if_neg (by simp [natLE_length])]
    simp only [List.mem_cons, List.not_mem_nil, or_false, forall_eq_or_imp, forall_eq] at hfit
    obtain ⟨ha, hc, hd, he, hf, hg', hk⟩ := hfit
    have q0 := u32_chunk [natLE 4 a, natLE 4 c, natLE 4 d, natLE 4 e, natLE 4 f, natLE 4 g, natLE 4 k] 0 (i := 0) rfl ha (by simp)
    have q1 := u32_chunk [natLE 4 a, natLE 4 c, natLE 4 d, natLE 4 e, natLE 4 f, natLE 4 g, natLE 4 k] 1 (i := 4) rfl hc (by simp [natLE_length])
    have q2 := u32_chunk [natLE 4 a, natLE 4 c, natLE 4 d, natLE 4 e, natLE 4 f, natLE 4 g, natLE 4 k] 2 (i := 8) rfl hd (by simp [natLE_length])
    have q3 := u32_chunk [natLE 4 a, natLE 4 c, natLE 4 d, natLE 4 e, natLE 4 f, natLE 4 g, natLE 4 k] 3 (i := 12) rfl he (by simp [natLE_length])
    have q4 := u32_chunk [natLE 4 a, natLE 4 c, natLE 4 d, natLE 4 e, natLE 4 f, natLE 4 g, natLE 4 k] 4 (i := 16) rfl hf (by simp [natLE_length])
    have q5 := u32_chunk [natLE 4 a, natLE 4 c, natLE 4 d, natLE 4 e, natLE 4 f, natLE 4 g, natLE 4 k] 5 (i := 20) rfl hg' (by simp [natLE_length])
    have q6 := u32_chunk [natLE 4 a, natLE 4 c, natLE 4 d, natLE 4 e, natLE 4 f, natLE 4 g, natLE 4 k] 6 (i := 24) rfl hk (by simp [natLE_length])
    rw [q0, q1, q2, q3, q4, q5, q6]

/-- A boot region with sectors of 1024 bytes, signatures in the extended boot sectors, and flash parameters. -/
def bigRegion : Region where
  boot := ⟨[0xEB, 0x76, 0x90], 0, 4096, 24, 32, 56, 4000, 4, 0x12345678, 0, 1, 0, 10, 0, 1, 0x80, 0, zeros 7, zeros 390⟩
  padding := zeros 512
  extended := List.replicate 8 (zeros 1022 ++ [0x55, 0xAA])
  oem := (BR.flashGuid :: [131072, 4096, 8, 1, 2, 3, 4].map (natLE 4) ++ [zeros 980]).flatten
  spare := zeros 1024
  checksums := Verif.Props.ExFAT.sampleSum 1471411378 1024

theorem bigRegion_fits : bigRegion.Fits 1024 where
  boot := by constructor <;> decide +kernel
  shift := by decide
  padding := zeros_length _
  count := List.length_replicate
  extended := fun s hs => by
    rw [List.eq_of_mem_replicate hs, List.length_append, zeros_length]; rfl
  oem := by decide +kernel
  spare := zeros_length _
  checksums := Verif.Props.ExFAT.sampleSum_length (by decide)

theorem bigRegion_accepted : openBR bigRegion.bytes = .ok ⟨bigRegion.bytes⟩ := by
  have := Verif.Props.ExFAT.region_accepted (Verif.Props.ExFAT.sampleSector 10)
    (zeros 512 ++ (List.replicate 8 (zeros 1022 ++ [0x55, 0xAA])).flatten ++ bigRegion.oem ++ zeros 1024) [] 1471411378 1024 (by decide +kernel)
    (by decide +kernel) (by decide) (by decide) (by decide) (by decide +kernel)
  rw [List.append_nil] at this
  have he : bigRegion.bytes = Verif.Props.ExFAT.sampleSector 10 ++
      (zeros 512 ++ (List.replicate 8 (zeros 1022 ++ [0x55, 0xAA])).flatten ++ bigRegion.oem ++ zeros 1024) ++
      Verif.Props.ExFAT.sampleSum 1471411378 1024 := by
    have hf : bigRegion.boot.fields.flatten = Verif.Props.ExFAT.sampleSector 10 := by decide +kernel
    unfold Region.bytes
    simp only [List.flatten_append, hf, List.flatten_cons, List.flatten_nil, List.append_nil, List.append_assoc]
    rfl
  rw [he]
  exact this

/-- **The signature of extended boot sectors is not given** for some accepted boot region: each one ends with `00 00 55 AA`. -/
theorem C113_extended_refuted : ∃ (r : Region) (b : BR), r.Fits 1024 ∧ openBR r.bytes = .ok b ∧
    (∀ s ∈ r.extended, s.drop (s.length - 4) = [0, 0, 0x55, 0xAA]) ∧ b.ebsSignature 1 = .ok [0, 0, 0, 0] := by
  refine ⟨bigRegion, ⟨bigRegion.bytes⟩, bigRegion_fits, bigRegion_accepted, fun s hs => ?_, ?_⟩
  · rw [List.eq_of_mem_replicate hs]; decide +kernel
  · have := C113_extended_elsewhere bigRegion 1024 bigRegion_fits ⟨bigRegion.bytes⟩ rfl 0 (zeros 1022 ++ [0x55, 0xAA]) rfl
    have he : ((zeros 1022 ++ [0x55, 0xAA]).drop 508).take 4 = [0, 0, 0, 0] := by decide +kernel
    rw [he] at this
    exact this

/-- **The OEM parameters are not given**: in some accepted boot region there are flash parameters, and none are given. -/
theorem C113_oem_ignored : ∃ (r : Region) (b : BR), r.Fits 1024 ∧ openBR r.bytes = .ok b ∧
    (∃ rest, r.oem = (BR.flashGuid :: [131072, 4096, 8, 1, 2, 3, 4].map (natLE 4) ++ [rest]).flatten) ∧
    b.oemGuid = .ok (zeros 16) ∧ b.oemFlashParameters = .ok none := by
  have hg := C113_oem_elsewhere bigRegion 1024 bigRegion_fits ⟨bigRegion.bytes⟩ rfl
  have he : bigRegion.spare.take 16 = zeros 16 := by decide +kernel
  rw [he] at hg
  refine ⟨bigRegion, ⟨bigRegion.bytes⟩, bigRegion_fits, bigRegion_accepted, ⟨zeros 980, rfl⟩, hg, ?_⟩
  unfold BR.oemFlashParameters
  rw [hg]
  dsimp only
  rw [if_pos (by decide +kernel)]

example : (⟨bigRegion.bytes⟩ : BR).volumeSerialNumber = 0x12345678 := (C113_fields bigRegion 1024 bigRegion_fits ⟨bigRegion.bytes⟩ rfl).2.2.2.2.2.2.2.2.2.2.2.1

/-- The same with sectors of 512 bytes, and with the flash parameters where the code reads them. -/
def smallRegion : Region where
  boot := ⟨[0xEB, 0x76, 0x90], 0, 4096, 24, 32, 56, 4000, 4, 0x12345678, 0, 1, 2, 9, 3, 1, 0x80, 255, zeros 7, zeros 390⟩
  padding := []
  extended := List.replicate 8 (zeros 510 ++ [0x55, 0xAA])
  oem := zeros 512
  spare := (BR.flashGuid :: [131072, 4096, 8, 1, 2, 3, 4].map (natLE 4) ++ [zeros 468]).flatten
  checksums := zeros 512

theorem smallRegion_fits : smallRegion.Fits 512 where
  boot := by constructor <;> decide +kernel
  shift := by decide
  padding := rfl
  count := List.length_replicate
  extended := fun s hs => by
    rw [List.eq_of_mem_replicate hs, List.length_append, zeros_length]; rfl
  oem := zeros_length _
  spare := by decide +kernel
  checksums := zeros_length _

example : (⟨smallRegion.bytes⟩ : BR).oemFlashParameters = .ok (some [131072, 4096, 8, 1, 2, 3, 4]) :=
  C113_oem_in_reserved smallRegion 512 smallRegion_fits ⟨smallRegion.bytes⟩ rfl _ (zeros 468) rfl (by decide) rfl

example : (⟨smallRegion.bytes⟩ : BR).ebsSignature 8 = .ok [0, 0, 0x55, 0xAA] := by
  have := C113_extended_partial smallRegion smallRegion_fits ⟨smallRegion.bytes⟩ rfl 7 (zeros 510 ++ [0x55, 0xAA]) rfl
  have he : (zeros 510 ++ [0x55, 0xAA]).drop ((zeros 510 ++ [0x55, 0xAA]).length - 4) = [0, 0, 0x55, 0xAA] := by decide +kernel
  rw [he] at this
  exact this

example : (⟨smallRegion.bytes⟩ : BR).volumeFlags = (false, true, false, false) ∧ (⟨smallRegion.bytes⟩ : BR).percentInUse = none := by
  obtain ⟨-, -, -, -, -, -, -, -, -, -, -, -, -, h1, -, -, -, -, h2, -⟩ := C113_fields smallRegion 512 smallRegion_fits ⟨smallRegion.bytes⟩ rfl
  exact ⟨h1, h2⟩

end Verif.Props.BootFieldsEx
