/-
Property C126: which volumes are opened as FAT12, FAT16 or FAT32, and the exceptions of opening one
(dfir_ntfs/addons/FAT.py:1480-1510).
-/
import Verif.Props.C53_C54
import Verif.Spec.FatTable
namespace Verif.Props
open Verif.FAT Verif.Spec.FAT

/-- What comes after the boot sector is accepted. -/
theorem openVolume_step (object : Bytes) (offset : Nat) (size : Option Nat) (hsize : ∀ s, size = some s → 4096 ≤ s) (hoff : offset < 2 ^ 63)
    (x : BSBPB) (hx : openBSBPB (slice object offset (offset + 512)) false = .ok x) :
    (ValidSectorSize (slice object offset (offset + 512)) ∧ offset % 512 = 0 ∧ ∃ v, openVolume object offset size = .ok v) ∨
    (¬ ValidSectorSize (slice object offset (offset + 512)) ∧ openVolume object offset size = .error .BootSectorException) ∨
    (ValidSectorSize (slice object offset (offset + 512)) ∧ offset % 512 ≠ 0 ∧ openVolume object offset size = .error .FileAllocationTableException) := by
  obtain ⟨hlen, _, hbuf, n, hv, ht⟩ := (C53_accepted _ _ _).mp hx
  have hsz : ¬ size.any (· < 4096) = true := by
    cases size with
    | none => simp
    | some s => have := hsize s rfl; simp; omega
  have hread : seekRead object offset 512 = .ok (slice object offset (offset + 512)) := by
    unfold seekRead
    rw [if_neg (by omega)]
  generalize slice object offset (offset + 512) = b at *
  subst hbuf
  have hx32 : if u16 x.buf 22 = 0 then x.isFat32 = true else x.isFat32 = false := by
    split at ht
    · rename_i h; rw [if_pos h]; exact ht.1
    · rename_i h; rw [if_neg h]; exact ht.1
  have htype := fatType_eq x n hv (by
    split at ht
    · rename_i h; rw [if_pos h]; exact ht.1
    · rename_i h; rw [if_neg h]; exact ht)
  have hspc : x.secPerClus = .ok (sectorsPerCluster x.buf) := by
    rw [secPerClus_eq, if_pos hv.2.2.2.1]
  have hopen : openVolume object offset size = (do
      let clusterSize := (← x.bytsPerSec) * (← x.secPerClus)
      let (fatOffset, fatSize, lastValid) ← fatOffsetAndSize x
      let table ← openTable object (offset + fatOffset) fatSize lastValid (if u16 x.buf 22 = 0 then .fat32 else if clusterCount x.buf n < 4085 then .fat12 else .fat16)
      let dataAreaOffset ← dataArea x (if u16 x.buf 22 = 0 then .fat32 else if clusterCount x.buf n < 4085 then .fat12 else .fat16)
      return ⟨object, offset, size, x, table, clusterSize, dataAreaOffset⟩) := by
    unfold openVolume
    rw [if_neg hsz, hread]
    simp only [bind, Except.bind, hx, htype, pure, Except.pure]
  rw [hopen]
  by_cases hs : ValidSectorSize x.buf
  · have hs' := hs
    unfold ValidSectorSize at hs'
    simp only [List.mem_cons, List.not_mem_nil, or_false] at hs'
    have hda := dataArea_eq x n hv hx32 hs (if u16 x.buf 22 = 0 then .fat32 else if clusterCount x.buf n < 4085 then .fat12 else .fat16) (by
      by_cases h : u16 x.buf 22 = 0
      · simp [h]
      · simp only [h, if_false, iff_false]
        split <;> simp)
    have hbps : x.bytsPerSec = .ok (u16 x.buf 11) := bytsPerSec_eq hs
    have hts : 0 < tableSectors x.buf := by
      unfold tableSectors
      split
      · omega
      · have := hv.2.2.2.2.2 (by omega)
        omega
    have hmod : u16 x.buf 11 % 512 = 0 := by omega
    have m1 : (u16 x.buf 14 + tableSectors x.buf * activeTable x.buf) * u16 x.buf 11 % 512 = 0 := by
      rw [Nat.mul_mod, hmod]; simp
    have m2 : tableSectors x.buf * u16 x.buf 11 % 512 = 0 := by rw [Nat.mul_mod, hmod]; simp
    have m3 : 512 ≤ tableSectors x.buf * u16 x.buf 11 := by
      have : 1 * 512 ≤ tableSectors x.buf * u16 x.buf 11 := Nat.mul_le_mul hts (by omega)
      omega
    have hpos : 0 < (u16 x.buf 14 + tableSectors x.buf * activeTable x.buf) * u16 x.buf 11 :=
      Nat.mul_pos (by have := hv.2.1; omega) (by omega)
    simp only [bind, Except.bind, hbps, hspc, fatOffsetAndSize_eq x n hv hx32 hs, hda]
    unfold openTable
    by_cases ho : offset % 512 = 0
    · rw [if_neg (by omega), if_neg (by omega)]
      exact .inl ⟨hs, ho, _, rfl⟩
    · rw [if_pos (by omega)]
      exact .inr (.inr ⟨hs, ho, rfl⟩)
  · refine .inr (.inl ⟨hs, ?_⟩)
    have : x.bytsPerSec = .error .BootSectorException := by
      unfold BSBPB.bytsPerSec
      exact if_pos hs
    rw [this]
    rfl

theorem openVolume_size {object : Bytes} {offset : Nat} {size : Option Nat} (h : ¬ ∀ s, size = some s → 4096 ≤ s) :
    openVolume object offset size = .error .ValueError ∧ ∃ s, size = some s ∧ s < 4096 := by
  cases size with
  | none => exact absurd (fun _ h => by cases h) h
  | some s =>
    by_cases hs : 4096 ≤ s
    · exact absurd (fun t ht => by cases ht; exact hs) h
    · refine ⟨?_, s, rfl, by omega⟩
      unfold openVolume
      rw [if_pos (by simp; omega)]
      rfl

theorem openVolume_offset {object : Bytes} {offset : Nat} {size : Option Nat} (hs : ∀ s, size = some s → 4096 ≤ s) (h : ¬ offset < 2 ^ 63) :
    openVolume object offset size = .error .OverflowError := by
  have hsz : ¬ size.any (· < 4096) = true := by
    cases size with
    | none => simp
    | some s => have := hs s rfl; simp; omega
  unfold openVolume seekRead
  rw [if_neg hsz, if_pos (by omega)]
  rfl

theorem openVolume_boot {object : Bytes} {offset : Nat} {size : Option Nat} (hs : ∀ s, size = some s → 4096 ≤ s) (h : offset < 2 ^ 63) {e : Exc}
    (hb : openBSBPB (slice object offset (offset + 512)) false = .error e) : openVolume object offset size = .error e := by
  have hsz : ¬ size.any (· < 4096) = true := by
    cases size with
    | none => simp
    | some s => have := hs s rfl; simp; omega
  unfold openVolume seekRead
  rw [if_neg hsz, if_neg (by omega)]
  simp only [bind, Except.bind, hb]

/-- C126: a volume is opened as FAT exactly when its size (if given) is at least 4096, it begins at a multiple of 512 (below 2^63), its first 512 bytes
are there and look like a boot sector, its sector size, cluster size, and counts are usable, and the count of clusters is one of FAT12 or FAT16, or the
volume says that it is one of FAT32 (of the version 0). -/
theorem C126_opened_iff (object : Bytes) (offset : Nat) (size : Option Nat) (b : Bytes) (hb : b = slice object offset (offset + 512)) :
    (∃ v, openVolume object offset size = .ok v) ↔
      (∀ s, size = some s → 4096 ≤ s) ∧ offset < 2 ^ 63 ∧ offset % 512 = 0 ∧ b.length = 512 ∧ LooksBootable b ∧ ValidSectorSize b ∧
      ∃ sectors, ValidFields b sectors ∧
        (u16 b 22 = 0 → u16 b 42 = 0) ∧ (u16 b 22 ≠ 0 → 1 ≤ clusterCount b sectors ∧ clusterCount b sectors ≤ 65524) := by
  subst hb
  by_cases hs : ∀ s, size = some s → 4096 ≤ s
  rotate_left
  · rw [(openVolume_size hs).1]
    exact ⟨(fun ⟨_, h⟩ => by cases h), fun h => absurd h.1 hs⟩
  by_cases ho : offset < 2 ^ 63
  rotate_left
  · rw [openVolume_offset hs ho]
    exact ⟨(fun ⟨_, h⟩ => by cases h), fun h => absurd h.2.1 ho⟩
  cases hx : openBSBPB (slice object offset (offset + 512)) false with
  | error e =>
    rw [openVolume_boot hs ho hx]
    refine ⟨(fun ⟨_, h⟩ => by cases h), fun ⟨_, _, _, hl, hlook, _, n, hv, h32, h16⟩ => ?_⟩
    have : openBSBPB (slice object offset (offset + 512)) false =
        .ok ⟨slice object offset (offset + 512), decide (u16 (slice object offset (offset + 512)) 22 = 0)⟩ := by
      refine (C53_accepted _ _ _).mpr ⟨hl, .inr hlook, rfl, n, hv, ?_⟩
      split
      · rename_i h; exact ⟨decide_eq_true h, h32 h⟩
      · rename_i h; exact ⟨decide_eq_false h, h16 h⟩
    rw [hx] at this
    cases this
  | ok x =>
    obtain ⟨hl, hlook, _, n, hv, ht⟩ := (C53_accepted _ _ _).mp hx
    rcases openVolume_step object offset size hs ho x hx with ⟨h1, h2, h3⟩ | ⟨h1, h3⟩ | ⟨h1, h2, h3⟩
    · refine ⟨fun _ => ⟨hs, ho, h2, hl, hlook.resolve_left (by decide), h1, n, hv, fun h => ?_, fun h => ?_⟩, fun _ => h3⟩
      · rw [if_pos h] at ht; exact ht.2
      · rw [if_neg h] at ht; exact ht.2
    · rw [h3]
      exact ⟨(fun ⟨_, h⟩ => by cases h), fun h => absurd h.2.2.2.2.2.1 h1⟩
    · rw [h3]
      exact ⟨(fun ⟨_, h⟩ => by cases h), fun h => absurd h.2.2.1 h2⟩

/-- C126: every exception of opening a volume of FAT is one of those that say that it is none, unless the given size is too small (`ValueError`), the
offset is too large (`OverflowError`), the volume is one of FAT32 of another version (`NotImplementedError`), or its counts are missing (`TypeError`). -/
theorem C126_errors (object : Bytes) (offset : Nat) (size : Option Nat) (b : Bytes) (hb : b = slice object offset (offset + 512)) (e : Exc)
    (h : openVolume object offset size = .error e) :
    e ∈ Verif.Spec.FatTable.refusals ∨ (e = .ValueError ∧ ∃ s, size = some s ∧ s < 4096) ∨ (e = .OverflowError ∧ 2 ^ 63 ≤ offset) ∨
      (e = .NotImplementedError ∧ u16 b 42 ≠ 0) ∨ (e = .TypeError ∧ RunsIntoNone b) := by
  subst hb
  by_cases hs : ∀ s, size = some s → 4096 ≤ s
  rotate_left
  · rw [(openVolume_size hs).1] at h
    cases h
    exact .inr (.inl ⟨rfl, (openVolume_size (object := object) (offset := offset) hs).2⟩)
  by_cases ho : offset < 2 ^ 63
  rotate_left
  · rw [openVolume_offset hs ho] at h
    cases h
    exact .inr (.inr (.inl ⟨rfl, by omega⟩))
  cases hx : openBSBPB (slice object offset (offset + 512)) false with
  | error e' =>
    rw [openVolume_boot hs ho hx] at h
    cases h
    rcases C54_errors _ _ _ hx with rfl | h | h
    · exact .inl (by decide)
    · exact .inr (.inr (.inr (.inl h)))
    · exact .inr (.inr (.inr (.inr h)))
  | ok x =>
    rcases openVolume_step object offset size hs ho x hx with ⟨h1, h2, v, h3⟩ | ⟨h1, h3⟩ | ⟨h1, h2, h3⟩
    · rw [h3] at h; cases h
    · rw [h3] at h; cases h; exact .inl (by decide)
    · rw [h3] at h; cases h; exact .inl (by decide)

/-- C126: a volume at an offset that is not a multiple of 512 (as a file carved out of an image can be) is never opened, whatever it holds. -/
theorem C126_offset (object : Bytes) (offset : Nat) (size : Option Nat) (h : offset % 512 ≠ 0) (v : Volume) : openVolume object offset size ≠ .ok v :=
  fun hv => h ((C126_opened_iff object offset size _ rfl).mp ⟨v, hv⟩).2.2.1

/-- C126, for a table that is opened directly: it is opened exactly when it begins at a multiple of 512 and its size is a positive multiple of
512; no other exception than `FileAllocationTableException` is raised, and the table is the given part of the file object. -/
theorem C126_table (object : Bytes) (offset size : Nat) (last : Int) (type : FatType) :
    (openTable object offset size last type = .ok ⟨object, offset, size, last, type⟩ ↔ 512 ∣ offset ∧ 512 ∣ size ∧ 0 < size) ∧
    (¬ (512 ∣ offset ∧ 512 ∣ size ∧ 0 < size) → openTable object offset size last type = .error .FileAllocationTableException) := by
  unfold openTable
  by_cases h1 : offset > 0 ∧ offset % 512 ≠ 0
  · rw [if_pos h1]
    exact ⟨⟨(fun h => by cases h), fun h => by omega⟩, fun _ => rfl⟩
  · rw [if_neg h1]
    by_cases h2 : size < 512 ∨ size % 512 ≠ 0
    · rw [if_pos h2]
      exact ⟨⟨(fun h => by cases h), fun h => by omega⟩, fun _ => rfl⟩
    · rw [if_neg h2]
      exact ⟨⟨fun _ => by omega, fun _ => rfl⟩, fun h => absurd (by omega) h⟩

/-- Both cases of `C126_table`. -/
example : openTable (zeros 4096) 512 1024 100 .fat12 = .ok ⟨zeros 4096, 512, 1024, 100, .fat12⟩ ∧
    openTable (zeros 4096) 512 700 100 .fat12 = .error .FileAllocationTableException :=
  ⟨(C126_table _ _ _ _ _).1.2 (by decide), (C126_table _ _ _ _ _).2 (by decide)⟩

/-- A claim without exceptions is false of the code: a boot sector without a size of the table gives a `TypeError` that no caller expects. -/
theorem C126_type_error : openVolume (bootSector 512 1 1 2 224 2880 0) 0 none = .error .TypeError := by
  refine openVolume_boot (fun _ h => by cases h) (by decide) ?_
  decide +kernel

/-- Not vacuous: a floppy disk with an empty table is opened; it is not when it begins at the offset 1. -/
example : (∃ v, openVolume (bootSector 512 1 1 2 224 2880 9) 0 none = .ok v) ∧
    openVolume ([0] ++ bootSector 512 1 1 2 224 2880 9) 1 none = .error .FileAllocationTableException := by
  constructor
  · have h : (openVolume (bootSector 512 1 1 2 224 2880 9) 0 none).map (fun v => v.clusterSize) = .ok 512 := by decide +kernel
    cases hv : openVolume (bootSector 512 1 1 2 224 2880 9) 0 none with
    | ok v => exact ⟨v, rfl⟩
    | error e => rw [hv] at h; cases h
  · have h : (openVolume ([0] ++ bootSector 512 1 1 2 224 2880 9) 1 none).map (fun v => v.clusterSize) = .error .FileAllocationTableException := by decide +kernel
    cases hv : openVolume ([0] ++ bootSector 512 1 1 2 224 2880 9) 1 none with
    | ok v => rw [hv] at h; cases h
    | error e => rw [hv] at h; cases h; rfl

end Verif.Props
