/-
Property C50: geometry in an NTFS boot sector (dfir_ntfs/BootSector.py).
-/
import Verif.Model.BootSector
namespace Verif.Props
open Verif.BootSector

theorem signedSize_eq {b : Bytes} {off : Nat} (h : off < b.length) :
    signedSize b off =
      if u8 b off < 128 then
        match sectorsPerCluster b, bytesPerSector b with
        | .ok spc, .ok bps => if u8 b off * spc * bps = 0 then .error .BootSectorException else .ok (u8 b off * spc * bps)
        | .error e, _ => .error e
        | _, .error e => .error e
      else .ok (2 ^ (256 - u8 b off)) := by
  unfold signedSize
  rw [leInt_byte h]
  have hlt := u8_lt b off
  by_cases hb : u8 b off < 128
  · rw [if_pos hb, if_pos hb]
    dsimp only
    rw [if_pos (by omega)]
    cases sectorsPerCluster b with
    | error e => rfl
    | ok s =>
      cases bytesPerSector b with
      | error e => rfl
      | ok p =>
        show (if ((u8 b off : Nat) : Int).toNat * s * p = 0 then _ else _) = _
        rw [Int.toNat_natCast]
  · rw [if_neg hb, if_neg hb]
    dsimp only
    rw [if_neg (by omega)]
    have e : ((u8 b off : Int) - 256).natAbs = 256 - u8 b off := by omega
    rw [e, Nat.shiftLeft_eq, Nat.one_mul]
    show (if 2 ^ (256 - u8 b off) = 0 then _ else _) = _
    rw [if_neg (by have := Nat.two_pow_pos (256 - u8 b off); omega)]

/-- C50: a buffer is accepted exactly when it is a positive number of 512-byte sectors with the OEM
name `NTFS` followed by four spaces at offset 3. -/
theorem C50_accepts_iff (buf b : Bytes) :
    init buf = .ok b ↔ b = buf ∧ 0 < buf.length ∧ 512 ∣ buf.length ∧
      slice buf 3 11 = [0x4E, 0x54, 0x46, 0x53, 0x20, 0x20, 0x20, 0x20] := by
  unfold init
  constructor
  · intro h
    split at h
    · cases h
    split at h
    · cases h
    · cases h
      rename_i h1 h2
      exact ⟨rfl, by omega, by omega, by simpa using h2⟩
  · rintro ⟨rfl, h0, ⟨k, hk⟩, hs⟩
    have : k ≠ 0 := by rintro rfl; omega
    rw [if_neg (by omega), if_neg (by simp [hs])]

/-- C50: the signed-byte rule for the cluster size: up to 0x80 the byte is the number of sectors,
above it stands for a power of two. -/
theorem C50_sectors_per_cluster (buf b : Bytes) (h : init buf = .ok b) :
    sectorsPerCluster b = if u8 buf 13 = 0 then .error .BootSectorException
      else if u8 buf 13 ≤ 128 then .ok (u8 buf 13) else .ok (2 ^ (256 - u8 buf 13)) := by
  obtain ⟨rfl, h0, h1, -⟩ := (C50_accepts_iff _ _).1 h
  have hlt := u8_lt b 13
  unfold sectorsPerCluster
  dsimp only
  split
  · rfl
  split
  · rfl
  · rw [leInt_byte (by omega : 13 < b.length), if_neg (by omega)]
    have e : ((u8 b 13 : Int) - 256).natAbs = 256 - u8 b 13 := by omega
    rw [e, Nat.shiftLeft_eq, Nat.one_mul]

/-- C50: the sector size is accepted exactly when the 16-bit field at 11 is a positive multiple of
512, and then it is that field. -/
theorem C50_bytes_per_sector (buf b : Bytes) (h : init buf = .ok b) :
    bytesPerSector b = if u16 buf 11 % 512 = 0 ∧ u16 buf 11 ≠ 0 then .ok (u16 buf 11) else .error .BootSectorException := by
  obtain ⟨rfl, h0, h1, -⟩ := (C50_accepts_iff _ _).1 h
  have e : u16 b 11 = u8 b 11 + 256 * u8 b 12 := by
    have h2 : slice b 11 13 = slice b 11 12 ++ slice b 12 13 := (slice_append_adj b (by omega) (by omega)).symm
    have h3 : (slice b 11 12).length = 1 := by rw [slice_length]; omega
    show leNat (slice b 11 13) = leNat (slice b 11 12) + 256 * leNat (slice b 12 13)
    rw [h2, leNat_append, h3]
  have h11 := u8_lt b 11
  have h12 := u8_lt b 12
  unfold bytesPerSector
  rw [e]
  dsimp only
  by_cases hz : u8 b 11 = 0
  · rw [if_neg (by omega), hz, Nat.zero_add, Nat.mul_comm]
    split
    · rw [if_neg (by omega)]
    · rw [if_pos (by omega)]
  · rw [if_pos hz, if_neg (by omega)]

/-- C50: the signed-byte rule for the size of file records (byte 64) and index records (byte 68):
a byte below 128 counts clusters, otherwise the size is two to the power of the negated signed
byte.  Nothing but `BootSectorException` is raised. -/
theorem C50_record_sizes (buf b : Bytes) (h : init buf = .ok b) :
    (∀ n, fileRecordSegmentSize b = .ok n ↔
      (u8 buf 64 ≥ 128 ∧ n = 2 ^ (256 - u8 buf 64)) ∨
      (0 < u8 buf 64 ∧ u8 buf 64 < 128 ∧ ∃ spc bps, sectorsPerCluster b = .ok spc ∧ bytesPerSector b = .ok bps ∧
        n = u8 buf 64 * (spc * bps))) ∧
    (∀ n, indexRecordSize b = .ok n ↔
      (u8 buf 68 ≥ 128 ∧ n = 2 ^ (256 - u8 buf 68)) ∨
      (0 < u8 buf 68 ∧ u8 buf 68 < 128 ∧ ∃ spc bps, sectorsPerCluster b = .ok spc ∧ bytesPerSector b = .ok bps ∧
        n = u8 buf 68 * (spc * bps))) ∧
    (∀ e, fileRecordSegmentSize b = .error e → e = .BootSectorException) ∧
    (∀ e, indexRecordSize b = .error e → e = .BootSectorException) := by
  have hspc := C50_sectors_per_cluster buf b h
  have hbps := C50_bytes_per_sector buf b h
  obtain ⟨rfl, h0, h1, -⟩ := (C50_accepts_iff _ _).1 h
  have hl : 512 ≤ b.length := by omega
  have spos : ∀ s, sectorsPerCluster b = .ok s → 0 < s := by
    intro s hs
    rw [hspc] at hs
    split at hs
    · cases hs
    split at hs
    · cases hs; omega
    · cases hs; exact Nat.two_pow_pos _
  have bpos : ∀ s, bytesPerSector b = .ok s → 0 < s := by
    intro s hs
    rw [hbps] at hs
    split at hs
    · cases hs; omega
    · cases hs
  have serr : ∀ e, sectorsPerCluster b = .error e → e = .BootSectorException := by
    intro e he
    rw [hspc] at he
    split at he
    · cases he; rfl
    split at he <;> cases he
  have berr : ∀ e, bytesPerSector b = .error e → e = .BootSectorException := by
    intro e he
    rw [hbps] at he
    split at he
    · cases he
    · cases he; rfl
  clear hspc hbps
  have main : ∀ off, off < b.length → ∀ n, signedSize b off = .ok n ↔
      (u8 b off ≥ 128 ∧ n = 2 ^ (256 - u8 b off)) ∨
      (0 < u8 b off ∧ u8 b off < 128 ∧ ∃ spc bps, sectorsPerCluster b = .ok spc ∧ bytesPerSector b = .ok bps ∧
        n = u8 b off * (spc * bps)) := by
    intro off hoff n
    rw [signedSize_eq hoff]
    by_cases hb : u8 b off < 128
    · rw [if_pos hb]
      cases hs : sectorsPerCluster b with
      | error e =>
        constructor
        · intro hh; cases hh
        · rintro (⟨hh, -⟩ | ⟨-, -, spc, bps, hh, -⟩)
          · omega
          · cases hh
      | ok s =>
        cases hp : bytesPerSector b with
        | error e =>
          constructor
          · intro hh; cases hh
          · rintro (⟨hh, -⟩ | ⟨-, -, spc, bps, -, hh, -⟩)
            · omega
            · cases hh
        | ok p =>
          dsimp only
          have h1 := spos s hs
          have h2 := bpos p hp
          by_cases hz : u8 b off = 0
          · rw [if_pos (by simp [hz])]
            constructor
            · intro hh; cases hh
            · rintro (⟨hh, -⟩ | ⟨hh, -⟩) <;> omega
          · have : u8 b off * s * p ≠ 0 := Nat.mul_ne_zero (Nat.mul_ne_zero hz (by omega)) (by omega)
            rw [if_neg this]
            constructor
            · intro hh; cases hh; exact .inr ⟨by omega, hb, s, p, rfl, rfl, Nat.mul_assoc _ _ _⟩
            · rintro (⟨hh, -⟩ | ⟨-, -, spc, bps, e1, e2, e3⟩)
              · omega
              · cases e1; cases e2; rw [e3, Nat.mul_assoc]
    · rw [if_neg hb]
      constructor
      · intro hh; cases hh; exact .inl ⟨by omega, rfl⟩
      · rintro (⟨-, hh⟩ | ⟨-, hh, -⟩)
        · rw [hh]
        · omega
  have merr : ∀ off, off < b.length → ∀ e, signedSize b off = .error e → e = .BootSectorException := by
    intro off hoff e he
    rw [signedSize_eq hoff] at he
    split at he
    · split at he
      · split at he
        · cases he; rfl
        · cases he
      · cases he; exact serr _ (by assumption)
      · cases he; exact berr _ (by assumption)
    · cases he
  exact ⟨main 64 (by omega), main 68 (by omega), merr 64 (by omega), merr 68 (by omega)⟩

/-- A boot sector for examples: 512 bytes per sector, `spc` and `frs` as given. -/
def demoBoot (bps spc frs : UInt8) : Bytes :=
  [0xEB, 0x52, 0x90, 0x4E, 0x54, 0x46, 0x53, 0x20, 0x20, 0x20, 0x20, 0, bps, spc] ++ zeros 50 ++ [frs, 0, 0, 0, 1] ++ zeros 443

example : init (demoBoot 2 8 0xF6) = .ok (demoBoot 2 8 0xF6) ∧ sectorsPerCluster (demoBoot 2 8 0xF6) = .ok 8 ∧
    fileRecordSegmentSize (demoBoot 2 8 0xF6) = .ok 1024 ∧ indexRecordSize (demoBoot 2 8 0xF6) = .ok 4096 ∧
    sectorsPerCluster (demoBoot 2 0xF4 0xF6) = .ok 4096 := by decide +kernel

/-- C50 is false of the code as far as powers of two are concerned: a boot sector with 1536-byte
sectors and 3 sectors per cluster is accepted. -/
theorem C50_odd_geometry_accepted : ∃ b, init b = .ok b ∧ sectorsPerCluster b = .ok 3 ∧ bytesPerSector b = .ok 1536 :=
  ⟨demoBoot 6 3 0xF6, by decide +kernel⟩

/-- C50 (partial).  The full statement: the cluster size is a power-of-two multiple of the sector
size.  Proved: the number of sectors per cluster is positive and the sector size a positive multiple
of 512 below 65536; above 128 sectors it is a power of two.  Missing: the byte values 1 to 128 that
are not powers of two, which are accepted (`C50_odd_geometry_accepted`). -/
theorem C50_geometry_partial (buf b : Bytes) (h : init buf = .ok b) (spc bps : Nat)
    (hs : sectorsPerCluster b = .ok spc) (hb : bytesPerSector b = .ok bps) :
    0 < spc ∧ 512 ∣ bps ∧ 0 < bps ∧ bps < 65536 ∧ (128 < spc → ∃ k, spc = 2 ^ k ∧ k ≤ 127) ∧
    (spc ≤ 128 → u8 buf 13 = spc ∨ u8 buf 13 ≥ 249 ∧ ∃ k, spc = 2 ^ k) := by
  rw [C50_sectors_per_cluster buf b h] at hs
  rw [C50_bytes_per_sector buf b h] at hb
  have hlt := u8_lt buf 13
  have h16 := u16_lt buf 11
  split at hb
  · cases hb
    split at hs
    · cases hs
    split at hs
    · cases hs
      refine ⟨by omega, by omega, by omega, by omega, fun hh => by omega, fun _ => .inl rfl⟩
    · cases hs
      refine ⟨Nat.two_pow_pos _, by omega, by omega, by omega, fun _ => ⟨_, rfl, by omega⟩, fun hle => .inr ⟨?_, _, rfl⟩⟩
      have : 256 - u8 buf 13 ≤ 7 := by
        apply Decidable.byContradiction
        intro hc
        have : (2 : Nat) ^ 8 ≤ 2 ^ (256 - u8 buf 13) := Nat.pow_le_pow_right (by decide) (by omega)
        omega
      omega
  · cases hb

/-- C50: boot code is reported exactly when the sector starts with something else than two zero bytes and
ends with 55 AA. -/
theorem C50_boot_code (b : Bytes) : isBootCodePresent b = true ↔
    leNat (slice b 0 2) ≠ 0 ∧ leNat (slice b 510 512) = 0xAA55 := by
  unfold isBootCodePresent
  rw [decide_eq_true_iff]
  exact Iff.rfl

end Verif.Props
