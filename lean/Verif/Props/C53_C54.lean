/-
C53: the type of a FAT file system is decided by the count of clusters.
C54: what happens with an unsupported boot sector.
-/
import Verif.Spec.FAT
import Verif.Basic.Bits
namespace Verif.Props
open Verif.FAT Verif.Spec.FAT

theorem validSpc_iff (b : Bytes) : ValidSectorsPerCluster b ↔ sectorsPerCluster b ∈ [1, 2, 4, 8, 16, 32, 64, 128, 256] := by
  unfold ValidSectorsPerCluster
  constructor
  · rintro ⟨k, hk, h⟩
    rw [h]
    have : k = 0 ∨ k = 1 ∨ k = 2 ∨ k = 3 ∨ k = 4 ∨ k = 5 ∨ k = 6 ∨ k = 7 ∨ k = 8 := by omega
    rcases this with rfl | rfl | rfl | rfl | rfl | rfl | rfl | rfl | rfl <;> decide
  · intro h
    simp only [List.mem_cons, List.not_mem_nil, or_false] at h
    rcases h with h | h | h | h | h | h | h | h | h
    · exact ⟨0, by omega, h⟩
    · exact ⟨1, by omega, h⟩
    · exact ⟨2, by omega, h⟩
    · exact ⟨3, by omega, h⟩
    · exact ⟨4, by omega, h⟩
    · exact ⟨5, by omega, h⟩
    · exact ⟨6, by omega, h⟩
    · exact ⟨7, by omega, h⟩
    · exact ⟨8, by omega, h⟩

instance (b : Bytes) : Decidable (ValidSectorsPerCluster b) := decidable_of_iff _ (validSpc_iff b).symm
instance (b : Bytes) : Decidable (ValidSectorSize b) := by unfold ValidSectorSize; infer_instance

theorem secPerClus_eq (b : BSBPB) :
    b.secPerClus = if ValidSectorsPerCluster b.buf then .ok (sectorsPerCluster b.buf) else .error .BootSectorException := by
  unfold BSBPB.secPerClus
  have := validSpc_iff b.buf
  unfold sectorsPerCluster at this ⊢
  dsimp only
  by_cases h : ValidSectorsPerCluster b.buf
  · rw [if_pos h, if_neg (fun h' => h' (this.mp h))]
  · rw [if_neg h, if_pos (fun h' => h (this.mpr h'))]

theorem total32 (b : Bytes) (h : u16 b 22 = 0) : totalSectors ⟨b, true⟩ = sectorCount b := by
  unfold totalSectors sectorCount BSBPB.totSec16 BSBPB.totSec32 BSBPB.totSec64 BSBPB.bootSig BSBPB.totSec16 BSBPB.totSec32
  by_cases h1 : u16 b 19 = 0 <;> by_cases h2 : u32 b 32 = 0 <;> simp [h, h1, h2]

theorem total16 (b : Bytes) (h : u16 b 22 ≠ 0) : totalSectors ⟨b, false⟩ = sectorCount b := by
  unfold totalSectors sectorCount BSBPB.totSec16 BSBPB.totSec32 BSBPB.totSec64 BSBPB.bootSig BSBPB.totSec16 BSBPB.totSec32
  by_cases h1 : u16 b 19 = 0 <;> by_cases h2 : u32 b 32 = 0 <;> simp [h, h1, h2]

theorem count32 (b : Bytes) : getCountOfClusters ⟨b, true⟩ =
    if u16 b 22 ≠ 0 ∨ u16 b 14 = 0 ∨ u8 b 16 = 0 ∨ u32 b 36 = 0 then .error .BootSectorException
    else match sectorCount b with
      | none => .error .TypeError
      | some n => if ValidSectorsPerCluster b then .ok (clusterCount b n) else .error .BootSectorException := by
  unfold getCountOfClusters
  by_cases h1 : u16 b 22 = 0
  · rw [total32 b h1]
    by_cases h2 : u16 b 14 = 0
    · simp [BSBPB.fatSz16, BSBPB.rsvdSecCnt, h1, h2, bind, Except.bind]
    by_cases h3 : u8 b 16 = 0
    · simp [BSBPB.fatSz16, BSBPB.rsvdSecCnt, BSBPB.numFats, h1, h2, h3, bind, Except.bind]
    by_cases h4 : u32 b 36 = 0
    · simp [BSBPB.fatSz16, BSBPB.rsvdSecCnt, BSBPB.numFats, BSBPB.fatSz32, h1, h2, h3, h4, bind, Except.bind]
    cases h5 : sectorCount b with
    | none => simp [BSBPB.fatSz16, BSBPB.rsvdSecCnt, BSBPB.numFats, BSBPB.fatSz32, totalMinus, h1, h2, h3, h4, bind, Except.bind]
    | some n =>
      by_cases h6 : ValidSectorsPerCluster b
      · simp [BSBPB.fatSz16, BSBPB.rsvdSecCnt, BSBPB.numFats, BSBPB.fatSz32, secPerClus_eq, totalMinus, clusterCount, sectorsBeforeData, h1, h2, h3, h4, h6, bind, Except.bind, pure, Except.pure]
      · simp [BSBPB.fatSz16, BSBPB.rsvdSecCnt, BSBPB.numFats, BSBPB.fatSz32, secPerClus_eq, totalMinus, h1, h2, h3, h4, h6, bind, Except.bind]
  · have : u16 b 22 > 0 := by omega
    simp [BSBPB.fatSz16, h1, this, bind, Except.bind]

theorem count16 (b : Bytes) : getCountOfClusters ⟨b, false⟩ =
    if u16 b 22 ≠ 0 then
      if ¬ ValidSectorSize b ∨ u16 b 14 = 0 ∨ u8 b 16 = 0 then .error .BootSectorException
      else match sectorCount b with
        | none => .error .TypeError
        | some n => if ValidSectorsPerCluster b then .ok (clusterCount b n) else .error .BootSectorException
    else if u16 b 14 = 0 ∨ u8 b 16 = 0 then .error .BootSectorException
    else .error .TypeError := by
  unfold getCountOfClusters
  by_cases h1 : u16 b 22 = 0
  · by_cases h2 : u16 b 14 = 0
    · simp [BSBPB.fatSz16, BSBPB.rsvdSecCnt, h1, h2, bind, Except.bind]
    by_cases h3 : u8 b 16 = 0
    · simp [BSBPB.fatSz16, BSBPB.rsvdSecCnt, BSBPB.numFats, h1, h2, h3, bind, Except.bind]
    · simp [BSBPB.fatSz16, BSBPB.rsvdSecCnt, BSBPB.numFats, BSBPB.fatSz32, h1, h2, h3, bind, Except.bind, throw, throwThe, MonadExceptOf.throw]
  · have hp : 0 < u16 b 22 := by omega
    rw [total16 b h1]
    by_cases h0 : ValidSectorSize b
    · have h0' : u16 b 11 ∈ [512, 1024, 2048, 4096] := h0
      by_cases h2 : u16 b 14 = 0
      · simp only [BSBPB.fatSz16, BSBPB.rootEntCnt, BSBPB.bytsPerSec, BSBPB.rsvdSecCnt, hp, h0, h0', h2, bind, Except.bind]
        simp [h1, hp]
      by_cases h3 : u8 b 16 = 0
      · simp only [BSBPB.fatSz16, BSBPB.rootEntCnt, BSBPB.bytsPerSec, BSBPB.rsvdSecCnt, BSBPB.numFats, hp, h0, h0', h2, h3, bind, Except.bind]
        simp [h1, hp]
      cases h5 : sectorCount b with
      | none =>
        simp only [BSBPB.fatSz16, BSBPB.rootEntCnt, BSBPB.bytsPerSec, BSBPB.rsvdSecCnt, BSBPB.numFats, totalMinus, hp, h0, h0', h2, h3, bind, Except.bind]
        simp [h1, hp]
      | some n =>
        by_cases h6 : ValidSectorsPerCluster b
        · simp only [BSBPB.fatSz16, BSBPB.rootEntCnt, BSBPB.bytsPerSec, BSBPB.rsvdSecCnt, BSBPB.numFats, totalMinus, secPerClus_eq, clusterCount, sectorsBeforeData,
            hp, h0, h0', h2, h3, h6, bind, Except.bind, pure, Except.pure]
          simp [h1, hp]
        · simp only [BSBPB.fatSz16, BSBPB.rootEntCnt, BSBPB.bytsPerSec, BSBPB.rsvdSecCnt, BSBPB.numFats, totalMinus, secPerClus_eq,
            hp, h0, h0', h2, h3, h6, bind, Except.bind]
          simp [h1, hp]
    · have h0' : u16 b 11 ∉ [512, 1024, 2048, 4096] := h0
      simp only [BSBPB.fatSz16, BSBPB.rootEntCnt, BSBPB.bytsPerSec, hp, h0, h0', bind, Except.bind]
      simp [h1, hp]

theorem try32_eq (b : Bytes) : try32 b =
    if u16 b 22 ≠ 0 ∨ u16 b 14 = 0 ∨ u8 b 16 = 0 ∨ u32 b 36 = 0 then .error .BootSectorException
    else if sectorCount b = none then .error .TypeError
    else if ¬ ValidSectorsPerCluster b then .error .BootSectorException
    else if u16 b 42 ≠ 0 then .error .NotImplementedError
    else .ok () := by
  unfold try32 isFileSystem32
  rw [count32]
  by_cases h1 : u16 b 22 ≠ 0 ∨ u16 b 14 = 0 ∨ u8 b 16 = 0 ∨ u32 b 36 = 0
  · simp only [if_pos h1, bind, Except.bind]
  · rw [if_neg h1, if_neg h1]
    cases h2 : sectorCount b with
    | none => simp [bind, Except.bind]
    | some n =>
      by_cases h3 : ValidSectorsPerCluster b
      · have h4 : u16 b 22 = 0 := by omega
        have h5 : u32 b 36 ≠ 0 := by omega
        have h6 : 0 < u32 b 36 := by omega
        by_cases h7 : clusterCount b n ≥ 65525
        · simp only [if_pos h3, bind, Except.bind, if_pos h7, pure, Except.pure]
          simp [BSBPB.fsVer, h3]
        · simp only [if_pos h3, bind, Except.bind, if_neg h7, pure, Except.pure, BSBPB.fatSz16, BSBPB.fatSz32, h4, h5]
          simp [BSBPB.fsVer, h3, h6]
      · simp [h3, bind, Except.bind]

theorem try16_eq (b : Bytes) : try16 b =
    if u16 b 22 ≠ 0 then
      if ¬ ValidSectorSize b ∨ u16 b 14 = 0 ∨ u8 b 16 = 0 then .error .BootSectorException
      else match sectorCount b with
        | none => .error .TypeError
        | some n => if ValidSectorsPerCluster b ∧ 1 ≤ clusterCount b n ∧ clusterCount b n ≤ 65524 then .ok () else .error .BootSectorException
    else if u16 b 14 = 0 ∨ u8 b 16 = 0 then .error .BootSectorException
    else .error .TypeError := by
  unfold try16 isFileSystem16 isFileSystem12
  rw [count16]
  by_cases h1 : u16 b 22 ≠ 0
  · rw [if_pos h1, if_pos h1]
    by_cases h2 : ¬ ValidSectorSize b ∨ u16 b 14 = 0 ∨ u8 b 16 = 0
    · simp only [if_pos h2, bind, Except.bind]
    · rw [if_neg h2, if_neg h2]
      cases h3 : sectorCount b with
      | none => simp [bind, Except.bind]
      | some n =>
        by_cases h4 : ValidSectorsPerCluster b
        · dsimp only
          simp only [if_pos h4, bind, Except.bind, pure, Except.pure, decide_eq_true_eq, throw, throwThe, MonadExceptOf.throw]
          by_cases h5 : clusterCount b n < 65525 ∧ clusterCount b n ≥ 4085
          · rw [if_pos h5, if_pos ⟨h4, by omega, by omega⟩]
          · rw [if_neg h5]
            by_cases h6 : clusterCount b n < 4085 ∧ clusterCount b n > 0
            · rw [if_pos h6, if_pos ⟨h4, by omega, by omega⟩]
            · rw [if_neg h6, if_neg (by omega)]
        · simp [h4, bind, Except.bind]
  · rw [if_neg h1, if_neg h1]
    by_cases h2 : u16 b 14 = 0 ∨ u8 b 16 = 0
    · simp only [if_pos h2, bind, Except.bind]
    · simp only [if_neg h2, bind, Except.bind]

/-- C53: which boot sectors are taken, and as what: a boot sector with a 16-bit size of the table is one of
FAT12/16 and is taken when there are 1 to 65524 clusters; one without is FAT32, with any count of clusters,
and is taken when its version is zero.  Nothing else in the sector has a part in it, except that the fields
for the count of clusters have to be usable and that there is a signature or a jump. -/
theorem C53_accepted (b : Bytes) (relaxed : Bool) (x : BSBPB) :
    openBSBPB b relaxed = .ok x ↔
      b.length = 512 ∧ (relaxed = true ∨ LooksBootable b) ∧ x.buf = b ∧ ∃ sectors, ValidFields b sectors ∧
        (if u16 b 22 = 0 then x.isFat32 = true ∧ u16 b 42 = 0
         else x.isFat32 = false ∧ 1 ≤ clusterCount b sectors ∧ clusterCount b sectors ≤ 65524) := by
  unfold openBSBPB
  by_cases hl : b.length ≠ 512
  · rw [if_pos hl]
    constructor
    · intro h; cases h
    · intro h; exact absurd h.1 hl
  replace hl : b.length = 512 := by omega
  rw [if_neg (by omega)]
  by_cases hb : ¬ relaxed = true ∧ slice b 510 512 ≠ [0x55, 0xAA] ∧ u8 b 0 ≠ 0xE9 ∧ u8 b 0 ≠ 0xEB
  · rw [if_pos hb]
    constructor
    · intro h; cases h
    · rintro ⟨_, h | h | h | h, _⟩
      · exact absurd h hb.1
      · exact absurd h hb.2.1
      · exact absurd h hb.2.2.1
      · exact absurd h hb.2.2.2
  rw [if_neg hb]
  have hboot : relaxed = true ∨ LooksBootable b := by
    unfold LooksBootable
    apply Classical.byContradiction
    intro hn
    apply hb
    simp only [not_or] at hn
    exact ⟨hn.1, hn.2.1, hn.2.2.1, hn.2.2.2⟩
  simp only [hl, hboot, true_and]
  rw [try32_eq]
  unfold ValidFields
  by_cases h1 : u16 b 22 = 0
  · simp only [if_pos h1]
    by_cases h2 : u16 b 22 ≠ 0 ∨ u16 b 14 = 0 ∨ u8 b 16 = 0 ∨ u32 b 36 = 0
    · rw [if_pos h2]
      dsimp only
      rw [if_pos rfl, try16_eq, if_neg (by omega)]
      constructor
      · intro h
        split at h
        · rename_i hh; split at hh <;> cases hh
        · cases h
      · rintro ⟨_, n, ⟨_, ha, hc, _, _, hd⟩, _⟩
        have := hd h1
        omega
    · rw [if_neg h2]
      cases h3 : sectorCount b with
      | none =>
        rw [if_pos rfl]
        dsimp only
        rw [if_neg (by decide)]
        constructor
        · intro h; cases h
        · rintro ⟨_, n, ⟨h, _⟩, _⟩; cases h
      | some n =>
        rw [if_neg (by simp)]
        by_cases h4 : ValidSectorsPerCluster b
        · rw [if_neg (by simpa using h4)]
          by_cases h5 : u16 b 42 ≠ 0
          · rw [if_pos h5]
            dsimp only
            rw [if_neg (by decide)]
            constructor
            · intro h; cases h
            · rintro ⟨_, n, _, _, h⟩; exact absurd h h5
          · rw [if_neg h5]
            dsimp only
            constructor
            · intro h; cases h
              exact ⟨rfl, n, ⟨rfl, by omega, by omega, h4, fun h => absurd h1 h, fun _ => by omega⟩, rfl, by omega⟩
            · rintro ⟨h, _, _, h', _⟩
              cases x
              simp only at h h'
              rw [h, h']
        · rw [if_pos h4]
          dsimp only
          rw [if_pos rfl, try16_eq, if_neg (by omega), if_neg (by omega)]
          constructor
          · intro h; cases h
          · rintro ⟨_, n, ⟨_, _, _, h, _⟩, _⟩; exact absurd h h4
  · rw [if_pos (Or.inl h1)]
    dsimp only
    rw [if_pos rfl, try16_eq, if_pos h1]
    simp only [if_neg h1]
    by_cases h2 : ¬ ValidSectorSize b ∨ u16 b 14 = 0 ∨ u8 b 16 = 0
    · rw [if_pos h2]
      constructor
      · intro h; cases h
      · rintro ⟨_, n, ⟨_, ha, hc, _, hd, _⟩, _⟩
        have := hd h1
        rcases h2 with h2 | h2 | h2
        · exact absurd this h2
        · exact absurd h2 ha
        · exact absurd h2 hc
    · rw [if_neg h2]
      simp only [not_or, Classical.not_not] at h2
      cases h3 : sectorCount b with
      | none =>
        dsimp only
        constructor
        · intro h; cases h
        · rintro ⟨_, n, ⟨h, _⟩, _⟩; cases h
      | some n =>
        dsimp only
        by_cases h4 : ValidSectorsPerCluster b ∧ 1 ≤ clusterCount b n ∧ clusterCount b n ≤ 65524
        · rw [if_pos h4]
          constructor
          · intro h; cases h
            exact ⟨rfl, n, ⟨rfl, h2.2.1, h2.2.2, h4.1, fun _ => h2.1, fun h => absurd h h1⟩, rfl, h4.2.1, h4.2.2⟩
          · rintro ⟨h, _, _, h', _⟩
            cases x
            simp only at h h'
            rw [h, h']
        · rw [if_neg h4]
          constructor
          · intro h; cases h
          · rintro ⟨_, m, ⟨hm, _, _, hs, _⟩, _, hc1, hc2⟩
            cases hm
            exact absurd ⟨hs, hc1, hc2⟩ h4

theorem fatType_eq (x : BSBPB) (sectors : Nat) (hv : ValidFields x.buf sectors)
    (ht : if u16 x.buf 22 = 0 then x.isFat32 = true
      else x.isFat32 = false ∧ 1 ≤ clusterCount x.buf sectors ∧ clusterCount x.buf sectors ≤ 65524) :
    fatType x = .ok (if u16 x.buf 22 = 0 then .fat32 else if clusterCount x.buf sectors < 4085 then .fat12 else .fat16) := by
  obtain ⟨b, is32⟩ := x
  simp only at hv ht ⊢
  obtain ⟨h1, h2, h3, h4, h5, h6⟩ := hv
  by_cases h0 : u16 b 22 = 0
  · rw [if_pos h0] at ht ⊢
    subst ht
    have hf := h6 h0
    have hf' : 0 < u32 b 36 := by omega
    unfold fatType isFileSystem32
    rw [count32, if_neg (by omega), h1]
    dsimp only
    rw [if_pos h4]
    simp only [bind, Except.bind, pure, Except.pure, BSBPB.fatSz16, BSBPB.fatSz32, h0, hf]
    by_cases hc : clusterCount b sectors ≥ 65525
    · simp [hc]
    · simp [hc, hf']
  · rw [if_neg h0] at ht ⊢
    obtain ⟨ht, hc1, hc2⟩ := ht
    subst ht
    have hs := h5 h0
    have hcount : getCountOfClusters ⟨b, false⟩ = .ok (clusterCount b sectors) := by
      rw [count16, if_pos h0, if_neg (by simp only [not_or, Classical.not_not]; exact ⟨hs, h2, h3⟩), h1]
      dsimp only
      rw [if_pos h4]
    unfold fatType isFileSystem32 isFileSystem16 isFileSystem12
    rw [hcount]
    simp only [bind, Except.bind, pure, Except.pure, BSBPB.fatSz16]
    rw [if_neg (by omega)]
    simp only [Bool.false_eq_true, and_false, if_false, if_neg h0]
    by_cases hc : clusterCount b sectors < 4085
    · rw [if_pos hc]
      rw [if_neg (by simp only [decide_eq_true_eq]; omega), if_pos (by simp only [decide_eq_true_eq]; omega)]
    · rw [if_neg hc, if_pos (by simp only [decide_eq_true_eq]; omega)]

theorem openVolume_type {object : Bytes} {offset : Nat} {size : Option Nat} {v : Volume} (h : openVolume object offset size = .ok v) :
    v.object = object ∧ v.offset = offset ∧ v.size = size ∧
    openBSBPB (slice object offset (offset + 512)) false = .ok v.bsbpb ∧ fatType v.bsbpb = .ok v.table.type ∧
    (∃ bps spc, v.bsbpb.bytsPerSec = .ok bps ∧ v.bsbpb.secPerClus = .ok spc ∧ v.clusterSize = bps * spc) ∧
    (∃ o n l, fatOffsetAndSize v.bsbpb = .ok (o, n, l) ∧ openTable object (offset + o) n l v.table.type = .ok v.table) ∧
    dataArea v.bsbpb v.table.type = .ok v.dataAreaOffset := by
  unfold openVolume at h
  simp only [bind, Except.bind, pure, Except.pure, throw, throwThe, MonadExceptOf.throw] at h
  split at h
  · cases h
  split at h
  · cases h
  rename_i raw hraw
  have hraw' : raw = slice object offset (offset + 512) := by
    unfold seekRead at hraw
    split at hraw
    · cases hraw
    · cases hraw; rfl
  split at h
  · cases h
  rename_i bs hbs
  split at h
  · cases h
  rename_i type htype
  split at h
  · cases h
  rename_i bps hbps
  split at h
  · cases h
  rename_i spc hspc
  split at h
  · cases h
  rename_i ft hft
  split at h
  · cases h
  rename_i table htable
  split at h
  · cases h
  rename_i da hda
  cases h
  have htt : table.type = type := by
    unfold openTable at htable
    split at htable
    · cases htable
    · split at htable
      · cases htable
      · cases htable; rfl
  refine ⟨rfl, rfl, rfl, by rw [← hraw']; exact hbs, by rw [htt]; exact htype, ⟨bps, spc, hbps, hspc, rfl⟩, ⟨ft.1, ft.2.1, ft.2.2, hft, by rw [htt]; exact htable⟩, by rw [htt]; exact hda⟩

/-- C53: the type of an opened volume: FAT32 when there is no 16-bit size of the table, FAT12 for up to 4084
clusters, FAT16 from 4085 clusters. -/
theorem C53_type (object : Bytes) (offset : Nat) (size : Option Nat) (v : Volume) (h : openVolume object offset size = .ok v) :
    ∃ sectors, sectorCount (slice object offset (offset + 512)) = some sectors ∧
      (v.table.type = .fat32 ↔ u16 (slice object offset (offset + 512)) 22 = 0) ∧
      (v.table.type = .fat16 ↔ u16 (slice object offset (offset + 512)) 22 ≠ 0 ∧
        4085 ≤ clusterCount (slice object offset (offset + 512)) sectors ∧ clusterCount (slice object offset (offset + 512)) sectors ≤ 65524) ∧
      (v.table.type = .fat12 ↔ u16 (slice object offset (offset + 512)) 22 ≠ 0 ∧
        1 ≤ clusterCount (slice object offset (offset + 512)) sectors ∧ clusterCount (slice object offset (offset + 512)) sectors ≤ 4084) := by
  obtain ⟨_, _, _, hb, ht, _⟩ := openVolume_type h
  obtain ⟨_, _, hbuf, sectors, hv, hc⟩ := (C53_accepted _ _ _).mp hb
  rw [← hbuf] at hv hc
  have := fatType_eq v.bsbpb sectors hv (by
    split at hc
    · rename_i h0; rw [if_pos h0]; exact hc.1
    · rename_i h0; rw [if_neg h0]; exact hc)
  rw [ht] at this
  have hte := Except.ok.inj this
  rw [← hbuf, hte]
  refine ⟨sectors, hv.1, ?_⟩
  split at hc
  · rename_i h0
    simp [h0]
  · rename_i h0
    rw [if_neg h0]
    by_cases h4 : clusterCount v.bsbpb.buf sectors < 4085
    · rw [if_pos h4]
      simp [h0]
      omega
    · rw [if_neg h4]
      simp [h0]
      omega

theorem bytsPerSec_eq {b : Bytes} {f : Bool} (hs : ValidSectorSize b) : BSBPB.bytsPerSec ⟨b, f⟩ = .ok (u16 b 11) := by
  unfold BSBPB.bytsPerSec
  exact if_neg (Classical.not_not.mpr hs)

theorem dataArea_eq (x : BSBPB) (n : Nat) (hv : ValidFields x.buf n)
    (hx : if u16 x.buf 22 = 0 then x.isFat32 = true else x.isFat32 = false) (hs : ValidSectorSize x.buf)
    (type : FatType) (ht : type = .fat32 ↔ u16 x.buf 22 = 0) : dataArea x type = .ok (sectorsBeforeData x.buf * u16 x.buf 11) := by
  obtain ⟨b, is32⟩ := x
  simp only at hv hx hs ht ⊢
  obtain ⟨h1, h2, h3, h4, h5, h6⟩ := hv
  unfold dataArea sectorsBeforeData
  by_cases h0 : u16 b 22 = 0
  · rw [if_pos h0] at hx
    subst hx
    rw [if_pos (ht.mpr h0), if_neg (by omega)]
    simp [bind, Except.bind, pure, Except.pure, BSBPB.rsvdSecCnt, BSBPB.numFats, BSBPB.fatSz32, bytsPerSec_eq hs, h2, h3, h6 h0]
  · rw [if_neg h0] at hx
    subst hx
    rw [if_neg (fun h => h0 (ht.mp h)), if_pos h0]
    simp [bind, Except.bind, pure, Except.pure, BSBPB.rsvdSecCnt, BSBPB.numFats, BSBPB.fatSz16, BSBPB.rootEntCnt, bytsPerSec_eq hs, h2, h3]

theorem fatOffsetAndSize_eq (x : BSBPB) (n : Nat) (hv : ValidFields x.buf n)
    (hx : if u16 x.buf 22 = 0 then x.isFat32 = true else x.isFat32 = false) (hs : ValidSectorSize x.buf) :
    fatOffsetAndSize x = .ok ((u16 x.buf 14 + tableSectors x.buf * activeTable x.buf) * u16 x.buf 11, tableSectors x.buf * u16 x.buf 11,
      clusterCount x.buf n + 1) := by
  obtain ⟨b, is32⟩ := x
  simp only at hv hx hs ⊢
  obtain ⟨h1, h2, h3, h4, h5, h6⟩ := hv
  have hb : ∀ f, BSBPB.bytsPerSec ⟨b, f⟩ = .ok (u16 b 11) := by
    intro f; exact bytsPerSec_eq hs
  unfold fatOffsetAndSize tableSectors activeTable
  by_cases h0 : u16 b 22 = 0
  · rw [if_pos h0] at hx
    subst hx
    have hcount : getCountOfClusters ⟨b, true⟩ = .ok (clusterCount b n) := by
      have := h6 h0
      rw [count32, if_neg (by omega), h1]
      dsimp only
      rw [if_pos h4]
    have hm : u16 b 40 &&& 15 = u16 b 40 % 16 := and_mask _ 4
    have hbit : (u16 b 40 &&& 128 > 0) ↔ u16 b 40 / 128 % 2 = 1 := by
      have := and_two_pow_pos (u16 b 40) 7
      rw [Nat.testBit_eq_decide_div_mod_eq, decide_eq_true_eq] at this
      exact this
    simp only [bind, Except.bind, pure, Except.pure, BSBPB.rsvdSecCnt, BSBPB.numFats, BSBPB.fatSz32, BSBPB.extFlags, hb, hcount, h0, h2, h3, h6 h0,
      hm, hbit, if_false, not_true_eq_false, true_and, decide_eq_true_eq, ne_eq]
    by_cases hd : u16 b 40 / 128 % 2 = 1
    · by_cases ha : u16 b 40 % 16 < u8 b 16
      · simp [hd, ha, show ¬ (u8 b 16 < u16 b 40 % 16 + 1) by omega]
      · simp [hd, ha, show (u8 b 16 < u16 b 40 % 16 + 1) by omega]
    · simp [hd]
  · rw [if_neg h0] at hx
    subst hx
    have hcount : getCountOfClusters ⟨b, false⟩ = .ok (clusterCount b n) := by
      rw [count16, if_pos h0, if_neg (by simp only [not_or, Classical.not_not]; exact ⟨hs, h2, h3⟩), h1]
      dsimp only
      rw [if_pos h4]
    simp [bind, Except.bind, pure, Except.pure, BSBPB.rsvdSecCnt, BSBPB.fatSz16, hb, hcount, h0, h2]

/-- C53: the layout of an opened volume, from the fields of its boot sector. -/
theorem C53_layout (object : Bytes) (offset : Nat) (size : Option Nat) (v : Volume) (h : openVolume object offset size = .ok v)
    (b : Bytes) (hb : b = slice object offset (offset + 512)) :
    ∃ sectors, ValidFields b sectors ∧ ValidSectorSize b ∧
      v.object = object ∧ v.offset = offset ∧ v.size = size ∧
      v.clusterSize = u16 b 11 * sectorsPerCluster b ∧
      v.dataAreaOffset = sectorsBeforeData b * u16 b 11 ∧
      v.table.object = object ∧ v.table.offset = offset + (u16 b 14 + tableSectors b * activeTable b) * u16 b 11 ∧
      v.table.size = tableSectors b * u16 b 11 ∧ v.table.lastValidCluster = clusterCount b sectors + 1 := by
  obtain ⟨n, _, ht32, _⟩ := C53_type object offset size v h
  obtain ⟨ho, hof, hsz, hop, _, ⟨bps, spc, hbps, hspc, hcs⟩, ⟨o, m, l, hfat, htab⟩, hda⟩ := openVolume_type h
  obtain ⟨_, _, hbuf, sectors, hv, hc⟩ := (C53_accepted _ _ _).mp hop
  subst hb
  rw [← hbuf] at hv hc ht32 ⊢
  have hs : ValidSectorSize v.bsbpb.buf ∧ bps = u16 v.bsbpb.buf 11 := by
    unfold BSBPB.bytsPerSec at hbps
    split at hbps
    · cases hbps
    · rename_i h'
      cases hbps
      exact ⟨by unfold ValidSectorSize; exact Classical.not_not.mp h', rfl⟩
  have hspc' : spc = sectorsPerCluster v.bsbpb.buf := by
    rw [secPerClus_eq, if_pos hv.2.2.2.1] at hspc
    cases hspc; rfl
  have hx : if u16 v.bsbpb.buf 22 = 0 then v.bsbpb.isFat32 = true else v.bsbpb.isFat32 = false := by
    split at hc
    · rename_i h0; rw [if_pos h0]; exact hc.1
    · rename_i h0; rw [if_neg h0]; exact hc.1
  rw [fatOffsetAndSize_eq _ _ hv hx hs.1] at hfat
  rw [dataArea_eq _ _ hv hx hs.1 _ ht32] at hda
  cases hfat
  unfold openTable at htab
  split at htab
  · cases htab
  · split at htab
    · cases htab
    · have := Except.ok.inj htab
      refine ⟨sectors, hv, hs.1, ho, hof, hsz, by rw [hcs, hs.2, hspc'], (Except.ok.inj hda).symm, by rw [← this], by rw [← this], by rw [← this],
        by rw [← this]⟩

/-- The clusters of an opened volume have 512 to 1048576 bytes. -/
theorem opened_cluster {object : Bytes} {offset : Nat} {size : Option Nat} {v : Volume} (h : openVolume object offset size = .ok v) :
    512 ≤ v.clusterSize ∧ v.clusterSize ≤ 2 ^ 20 := by
  obtain ⟨n, hv, hs, _, _, _, hcs, _⟩ := C53_layout object offset size v h _ rfl
  have h4 := (validSpc_iff _).mp hv.2.2.2.1
  rw [hcs]
  unfold ValidSectorSize at hs
  revert hs h4
  generalize u16 _ 11 = a
  generalize sectorsPerCluster _ = c
  intro hs h4
  simp only [List.mem_cons, List.not_mem_nil, or_false] at hs h4
  rcases hs with rfl | rfl | rfl | rfl <;> rcases h4 with rfl | rfl | rfl | rfl | rfl | rfl | rfl | rfl | rfl <;> decide

/-- The boot sectors for which the constructor runs into `None` in an expression: no count of sectors, or
(without a 16-bit size of the table) no 32-bit size of the table or no usable sectors per cluster. -/
def RunsIntoNone (b : Bytes) : Prop :=
  u16 b 14 ≠ 0 ∧ u8 b 16 ≠ 0 ∧
  if u16 b 22 = 0 then u32 b 36 = 0 ∨ sectorCount b = none ∨ ¬ ValidSectorsPerCluster b
  else ValidSectorSize b ∧ sectorCount b = none

/-- C54: a boot sector that is not taken is rejected with BootSectorException or (a version other than zero)
with NotImplementedError; the sectors for which this is not so are exactly those above, they give a
TypeError. -/
theorem C54_errors (b : Bytes) (relaxed : Bool) (e : Exc) (h : openBSBPB b relaxed = .error e) :
    e = .BootSectorException ∨ (e = .NotImplementedError ∧ u16 b 42 ≠ 0) ∨ (e = .TypeError ∧ RunsIntoNone b) := by
  unfold openBSBPB at h
  split at h
  · cases h; exact Or.inl rfl
  split at h
  · cases h; exact Or.inl rfl
  rw [try32_eq, try16_eq] at h
  unfold RunsIntoNone
  by_cases h1 : u16 b 22 = 0
  · simp only [h1, if_true]
    by_cases h2 : u16 b 14 = 0 ∨ u8 b 16 = 0
    · have : u16 b 22 ≠ 0 ∨ u16 b 14 = 0 ∨ u8 b 16 = 0 ∨ u32 b 36 = 0 := by omega
      rw [if_pos this] at h
      dsimp only at h
      rw [if_pos rfl, if_neg (by omega), if_pos h2] at h
      cases h; exact Or.inl rfl
    · by_cases h3 : u32 b 36 = 0
      · have : u16 b 22 ≠ 0 ∨ u16 b 14 = 0 ∨ u8 b 16 = 0 ∨ u32 b 36 = 0 := by omega
        rw [if_pos this] at h
        dsimp only at h
        rw [if_pos rfl, if_neg (by omega), if_neg h2] at h
        cases h; exact Or.inr (Or.inr ⟨rfl, by omega, by omega, Or.inl h3⟩)
      · have : ¬ (u16 b 22 ≠ 0 ∨ u16 b 14 = 0 ∨ u8 b 16 = 0 ∨ u32 b 36 = 0) := by omega
        rw [if_neg this] at h
        by_cases h4 : sectorCount b = none
        · rw [if_pos h4] at h
          dsimp only at h
          rw [if_neg (by decide)] at h
          cases h; exact Or.inr (Or.inr ⟨rfl, by omega, by omega, Or.inr (Or.inl h4)⟩)
        · rw [if_neg h4] at h
          by_cases h5 : ValidSectorsPerCluster b
          · rw [if_neg (by simpa using h5)] at h
            by_cases h6 : u16 b 42 ≠ 0
            · rw [if_pos h6] at h
              dsimp only at h
              rw [if_neg (by decide)] at h
              cases h; exact Or.inr (Or.inl ⟨rfl, h6⟩)
            · rw [if_neg h6] at h
              cases h
          · rw [if_pos h5] at h
            dsimp only at h
            rw [if_pos rfl, if_neg (by omega), if_neg h2] at h
            cases h; exact Or.inr (Or.inr ⟨rfl, by omega, by omega, Or.inr (Or.inr h5)⟩)
  · rw [if_pos (Or.inl h1)] at h
    dsimp only at h
    rw [if_pos rfl, if_pos h1] at h
    simp only [h1, if_false]
    by_cases h2 : ¬ ValidSectorSize b ∨ u16 b 14 = 0 ∨ u8 b 16 = 0
    · rw [if_pos h2] at h
      cases h; exact Or.inl rfl
    · rw [if_neg h2] at h
      simp only [not_or, Classical.not_not] at h2
      cases h4 : sectorCount b with
      | none =>
        rw [h4] at h
        cases h; exact Or.inr (Or.inr ⟨rfl, h2.2.1, h2.2.2, h2.1, rfl⟩)
      | some n =>
        rw [h4] at h
        dsimp only at h
        split at h
        · rename_i hh; split at hh <;> cases hh
          cases h
        · rename_i hh; split at hh <;> cases hh
          cases h; exact Or.inl rfl

/-- C54 fails as stated: these sectors do give a TypeError (none of them is a file system that could be
parsed). -/
theorem C54_type_error (b : Bytes) (relaxed : Bool) (hl : b.length = 512) (hb : LooksBootable b) (h : RunsIntoNone b) :
    openBSBPB b relaxed = .error .TypeError := by
  have hok : ∀ x, openBSBPB b relaxed ≠ .ok x := by
    intro x hx
    obtain ⟨_, _, _, n, hv, hc⟩ := (C53_accepted _ _ _).mp hx
    obtain ⟨h1, h2, h3⟩ := h
    split at h3
    · rename_i h0
      rcases h3 with h3 | h3 | h3
      · exact hv.2.2.2.2.2 h0 h3
      · rw [hv.1] at h3; cases h3
      · exact h3 hv.2.2.2.1
    · rw [hv.1] at h3; cases h3.2
  unfold openBSBPB
  rw [if_neg (by omega), if_neg (by unfold LooksBootable at hb; intro hn; rcases hb with hb | hb | hb; exact hn.2.1 hb; exact hn.2.2.1 hb; exact hn.2.2.2 hb)]
  rw [try32_eq, try16_eq]
  obtain ⟨h1, h2, h3⟩ := h
  by_cases h0 : u16 b 22 = 0
  · rw [if_pos h0] at h3
    by_cases h4 : u32 b 36 = 0
    · rw [if_pos (by omega)]
      dsimp only
      rw [if_pos rfl, if_neg (by omega), if_neg (by omega)]
    · rw [if_neg (by omega)]
      by_cases h5 : sectorCount b = none
      · rw [if_pos h5]
        rfl
      · rw [if_neg h5]
        have h6 : ¬ ValidSectorsPerCluster b := by
          rcases h3 with h3 | h3 | h3
          · exact absurd h3 h4
          · exact absurd h3 h5
          · exact h3
        rw [if_pos h6]
        dsimp only
        rw [if_pos rfl, if_neg (by omega), if_neg (by omega)]
  · rw [if_neg h0] at h3
    rw [if_pos (Or.inl h0)]
    dsimp only
    rw [if_pos rfl, if_pos h0, if_neg (by simp only [not_or, Classical.not_not]; exact ⟨h3.1, h1, h2⟩), h3.2]

/-- C54 for the other sectors: the two exceptions of the claim, and no other. -/
theorem C54_rejected_partial (b : Bytes) (relaxed : Bool) (hn : ¬ RunsIntoNone b) (e : Exc) (h : openBSBPB b relaxed = .error e) :
    e = .BootSectorException ∨ e = .NotImplementedError := by
  rcases C54_errors b relaxed e h with h | h | h
  · exact Or.inl h
  · exact Or.inr h.1
  · exact absurd h.2 hn

/-- A sector with a jump and a plausible FAT12 layout, from the fields: bytes per sector, sectors per cluster,
reserved sectors, tables, root entries, sectors, 16-bit size of the table. -/
def bootSector (bps spc rsvd fats rootEntries sectors fatSize : Nat) : Bytes :=
  [0xEB, 0x3C, 0x90] ++ zeros 8 ++ natLE 2 bps ++ natLE 1 spc ++ natLE 2 rsvd ++ natLE 1 fats ++ natLE 2 rootEntries ++
  natLE 2 sectors ++ [0xF8] ++ natLE 2 fatSize ++ zeros 486 ++ [0x55, 0xAA]

/-- A floppy disk of 2880 sectors is FAT12 (2847 clusters). -/
example : openBSBPB (bootSector 512 1 1 2 224 2880 9) false = .ok ⟨bootSector 512 1 1 2 224 2880 9, false⟩ ∧
    sectorCount (bootSector 512 1 1 2 224 2880 9) = some 2880 ∧ clusterCount (bootSector 512 1 1 2 224 2880 9) 2880 = 2847 ∧
    fatType ⟨bootSector 512 1 1 2 224 2880 9, false⟩ = .ok .fat12 ∧
    fatType ⟨bootSector 512 1 1 2 512 4152 17, false⟩ = .ok .fat16 := by
  refine ⟨?_, ?_, ?_, ?_, ?_⟩ <;> decide +kernel

/-- A sector without a size of the table and one without a count of sectors. -/
example : RunsIntoNone (bootSector 512 1 1 2 224 2880 0) ∧ RunsIntoNone (bootSector 512 1 1 2 224 0 9) ∧
    ¬ RunsIntoNone (bootSector 512 1 1 2 224 2880 9) ∧ ¬ RunsIntoNone (bootSector 512 3 1 2 224 2880 9) ∧
    openBSBPB (bootSector 512 3 1 2 224 2880 9) false = .error .BootSectorException ∧
    openBSBPB (bootSector 512 1 1 2 224 2880 0) false = .error .TypeError := by
  refine ⟨?_, ?_, ?_, ?_, ?_, ?_⟩
  · unfold RunsIntoNone; decide +kernel
  · unfold RunsIntoNone; decide +kernel
  · unfold RunsIntoNone; decide +kernel
  · unfold RunsIntoNone; decide +kernel
  · decide +kernel
  · decide +kernel

end Verif.Props
