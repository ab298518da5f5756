/-
Lemmas about partition tables (C46-C49).
-/
import Verif.Spec.PartitionTable
import Verif.Basic.Pigeonhole
namespace Verif.PartitionTable
open Verif.Spec.PartitionTable

theorem u8_slice {b : Bytes} {i j k : Nat} (h : i + (k + 1) ≤ j) : u8 (slice b i j) k = u8 b (i + k) := by
  unfold u8; rw [slice_slice b i j k (k + 1) h]; rfl
theorem u16_slice {b : Bytes} {i j k : Nat} (h : i + (k + 2) ≤ j) : u16 (slice b i j) k = u16 b (i + k) := by
  unfold u16; rw [slice_slice b i j k (k + 2) h]; rfl
theorem u32_slice {b : Bytes} {i j k : Nat} (h : i + (k + 4) ≤ j) : u32 (slice b i j) k = u32 b (i + k) := by
  unfold u32; rw [slice_slice b i j k (k + 4) h]; rfl
theorem u64_slice {b : Bytes} {i j k : Nat} (h : i + (k + 8) ≤ j) : u64 (slice b i j) k = u64 b (i + k) := by
  unfold u64; rw [slice_slice b i j k (k + 8) h]; rfl

theorem clearCrc_eq {b : Bytes} (h : 20 ≤ b.length) : clearCrc b = slice b 0 16 ++ zeros 4 ++ b.drop 20 := by
  apply List.ext_getElem?
  intro n
  have h1 : (slice b 0 16).length = 16 := by rw [slice_length]; omega
  unfold clearCrc
  simp only [List.getElem?_set, List.length_set, List.append_assoc]
  rw [List.getElem?_append, h1, List.getElem?_append, zeros_length, slice_getElem?, List.getElem?_drop]
  by_cases c19 : 19 = n
  · subst c19; simp [zeros, show 19 < b.length by omega]
  rw [if_neg c19]
  by_cases c18 : 18 = n
  · subst c18; simp [zeros, show 18 < b.length by omega]
  rw [if_neg c18]
  by_cases c17 : 17 = n
  · subst c17; simp [zeros, show 17 < b.length by omega]
  rw [if_neg c17]
  by_cases c16 : 16 = n
  · subst c16; simp [zeros, show 16 < b.length by omega]
  rw [if_neg c16]
  by_cases hn : n < 16
  · rw [if_pos hn, if_pos (by omega), Nat.zero_add]
  · rw [if_neg hn, if_neg (by omega)]
    rw [show 20 + (n - 16 - 4) = n by omega]

theorem GPT.init_ok {volume : Bytes} {ss : Nat} {g : GPT} (h : GPT.init volume ss = .ok g) :
    g.volume = volume ∧ g.sectorSize = ss ∧ 512 ≤ ss ∧ 3 * ss + 32768 ≤ volume.length := by
  unfold GPT.init at h
  split at h
  · cases h
  split at h
  · cases h
  · cases h; exact ⟨rfl, rfl, by omega, by omega⟩

theorem first_usable_iff {x ss : Nat} (hss : 0 < ss) :
    ¬ x < (2 * ss + 16384) / ss ↔ 16384 + 2 * ss < (x + 1) * ss := by
  rw [Nat.not_lt, ← Nat.lt_succ_iff, Nat.div_lt_iff_lt_mul hss, Nat.add_comm]

set_option maxHeartbeats 2000000 in
/-- The checks accept exactly the consistent headers. -/
theorem readHeaderAt_ok_iff (g : GPT) (hss : 512 ≤ g.sectorSize) (hvol : g.volume.length < 2 ^ 63)
    (off loc : Nat) (b b' : Option Nat) (h : GPTHeader) :
    g.readHeaderAt off loc b = (.ok h, b') ↔
      ConsistentAt g.volume g.sectorSize off h ∧ h.location = loc ∧ b' = some (u64 g.volume (off + 32)) := by
  obtain ⟨vol, ss⟩ := g
  dsimp only at hss hvol ⊢
  unfold GPT.readHeaderAt
  dsimp only
  by_cases hin : off + ss ≤ vol.length
  · rw [seekRead_ok (by omega) (by omega)]
    dsimp only
    have hl : (slice vol off (off + ss)).length = ss := by rw [slice_length]; omega
    rw [if_neg (by simp [hl])]
    rw [slice_slice vol off (off + ss) 0 8 (by omega), Nat.add_zero]
    by_cases hsig : slice vol off (off + 8) = [0x45, 0x46, 0x49, 0x20, 0x50, 0x41, 0x52, 0x54]
    · rw [if_neg (by simp [hsig])]
      have r8 := @u32_slice vol off (off + ss) 8 (by omega)
      have r12 := @u32_slice vol off (off + ss) 12 (by omega)
      have r16 := @u32_slice vol off (off + ss) 16 (by omega)
      have r24 := @u64_slice vol off (off + ss) 24 (by omega)
      have r32 := @u64_slice vol off (off + ss) 32 (by omega)
      have r40 := @u64_slice vol off (off + ss) 40 (by omega)
      have r48 := @u64_slice vol off (off + ss) 48 (by omega)
      have r72 := @u64_slice vol off (off + ss) 72 (by omega)
      have r80 := @u32_slice vol off (off + ss) 80 (by omega)
      have r84 := @u32_slice vol off (off + ss) 84 (by omega)
      have r88 := @u32_slice vol off (off + ss) 88 (by omega)
      have rg := slice_slice vol off (off + ss) 56 72 (by omega)
      have hcrc : 92 ≤ u32 vol (off + 12) → u32 vol (off + 12) ≤ ss →
          clearCrc ((slice vol off (off + ss)).take (u32 vol (off + 12))) =
            slice vol off (off + 16) ++ zeros 4 ++ slice vol (off + 20) (off + u32 vol (off + 12)) := by
        intro ha hb
        have e : (slice vol off (off + ss)).take (u32 vol (off + 12)) = slice vol off (off + u32 vol (off + 12)) := by
          rw [← slice_zero, slice_slice _ _ _ _ _ (by omega)]; rfl
        have hl2 : (slice vol off (off + u32 vol (off + 12))).length = u32 vol (off + 12) := by
          rw [slice_length]; omega
        rw [e, clearCrc_eq (by omega), slice_slice _ _ _ _ _ (by omega), drop_eq_slice, hl2,
          slice_slice _ _ _ _ _ (by omega)]
        rfl
      unfold GPT.checkHeader
      rw [r8, r12, r16, r24, r32, r40, r48, r72, r80, r84, r88, rg]
      dsimp only
      clear r8 r12 r16 r24 r32 r40 r48 r72 r80 r84 r88 rg
      have harr : u64 vol (off + 72) * ss + ss < vol.length →
          u64 vol (off + 72) * ss + u32 vol (off + 80) * u32 vol (off + 84) ≤ vol.length →
          seekRead vol (u64 vol (off + 72) * ss) (u32 vol (off + 80) * u32 vol (off + 84)) =
            .ok (slice vol (u64 vol (off + 72) * ss) (u64 vol (off + 72) * ss + u32 vol (off + 80) * u32 vol (off + 84))) :=
        fun h1 h2 => seekRead_ok (by omega) (by omega)
      constructor
      · intro hh
        simp only [Prod.mk.injEq] at hh
        obtain ⟨hh, hb'⟩ := hh
        obtain ⟨c1, hh⟩ := of_ite_error hh
        obtain ⟨c2, hh⟩ := of_ite_error hh
        rw [hcrc (by omega) (by omega)] at hh
        obtain ⟨c3, hh⟩ := of_ite_error hh
        obtain ⟨c4, hh⟩ := of_ite_error hh
        obtain ⟨c5, hh⟩ := of_ite_error hh
        obtain ⟨c6, hh⟩ := of_ite_error hh
        obtain ⟨c7, hh⟩ := of_ite_error hh
        obtain ⟨c8, hh⟩ := of_ite_error hh
        split at hh
        · cases hh
        rename_i arr hsr
        have harr2 := (of_seekRead hsr).1
        obtain ⟨c9, hh⟩ := of_ite_error hh
        obtain ⟨c10, hh⟩ := of_ite_error hh
        cases hh
        subst harr2
        have c9' : (slice vol (u64 vol (off + 72) * ss) (u64 vol (off + 72) * ss + u32 vol (off + 80) * u32 vol (off + 84))).length
            = u32 vol (off + 80) * u32 vol (off + 84) := by simpa using c9
        rw [slice_length] at c9'
        refine ⟨⟨⟨hin, hsig⟩, c1, by omega, by omega, by simpa using c3, by simpa using c4, ?_, ⟨rfl, ?_⟩, rfl, rfl,
          ⟨rfl, ?_, ?_⟩, rfl, ⟨rfl, ?_, ?_⟩, ?_, ⟨rfl, ?_⟩⟩, rfl, hb'.symm⟩
        · exact ⟨by omega, by omega⟩
        · exact (first_usable_iff (by omega)).1 c6
        · show 1 < u64 vol (off + 72)
          omega
        · show u64 vol (off + 72) * ss + ss < vol.length
          have := not_or.1 c7
          omega
        · show 0 < u32 vol (off + 84)
          omega
        · show 128 ∣ u32 vol (off + 84)
          omega
        · show u64 vol (off + 72) * ss + u32 vol (off + 80) * u32 vol (off + 84) ≤ vol.length
          have := not_or.1 c7
          omega
        · show crc32 _ = u32 vol (off + 88)
          simpa using c10
      · rintro ⟨⟨-, k1, k2, k3, k4, k5, k6, k7, k8, k9, k10, k11, k12, k13, k14⟩, hloc, hb'⟩
        obtain ⟨loc', fu, lu, guid, pel, num, size, crc⟩ := h
        dsimp only at k1 k2 k3 k4 k5 k6 k7 k8 k9 k10 k11 k12 k13 k14 hloc
        obtain ⟨k7, k7'⟩ := k7
        obtain ⟨k10, k10', k10''⟩ := k10
        obtain ⟨k12, k12', k12''⟩ := k12
        obtain ⟨k14, k14'⟩ := k14
        subst k7 k8 k9 k10 k11 k12 k14 hloc hb'
        rw [if_neg k1, if_neg (by omega), hcrc k2 k3, if_neg (fun hne => hne k4), if_neg (by simp [k5]), if_neg (by omega),
          if_neg ((first_usable_iff (by omega)).2 k7'), if_neg (not_or.2 ⟨by omega, by omega⟩), if_neg (by omega), harr k10'' k13]
        dsimp only
        rw [if_neg (by rw [slice_length]; omega), if_neg (by simp [k14'])]
    · rw [if_pos (by simpa using hsig)]
      constructor
      · intro hh; cases hh
      · rintro ⟨hc, -⟩; exact absurd hc.signed.2 hsig
  · constructor
    · intro hh
      exfalso
      unfold seekRead at hh
      split at hh
      · cases hh
      · rename_i hx
        split at hx
        · cases hx
        · cases hx
          rw [if_pos] at hh
          · cases hh
          · rw [slice_length]; omega
    · rintro ⟨hc, -⟩; exact absurd hc.signed.1 hin

/-- What `backup_lba` is after a header was looked for. -/
theorem readHeaderAt_backup (g : GPT) (hss : 512 ≤ g.sectorSize) (hvol : g.volume.length < 2 ^ 63)
    (off loc : Nat) (b : Option Nat) :
    (g.readHeaderAt off loc b).2 = if SignedAt g.volume g.sectorSize off then some (u64 g.volume (off + 32)) else b := by
  obtain ⟨vol, ss⟩ := g
  dsimp only at hss hvol ⊢
  unfold GPT.readHeaderAt
  dsimp only
  by_cases hin : off + ss ≤ vol.length
  · rw [seekRead_ok (by omega) (by omega)]
    dsimp only
    have hl : (slice vol off (off + ss)).length = ss := by rw [slice_length]; omega
    rw [if_neg (by simp [hl]), slice_slice vol off (off + ss) 0 8 (by omega), Nat.add_zero]
    by_cases hsig : slice vol off (off + 8) = [0x45, 0x46, 0x49, 0x20, 0x50, 0x41, 0x52, 0x54]
    · rw [if_neg (by simp [hsig]), if_pos ⟨hin, hsig⟩, u64_slice (by omega)]
    · rw [if_pos hsig, if_neg (fun hh => hsig hh.2)]
  · rw [if_neg (fun hh => hin hh.1)]
    unfold seekRead
    split
    · rfl
    · rename_i hx
      split at hx
      · cases hx
      · cases hx
        rw [if_pos (by rw [slice_length]; omega)]

/-- Only `ValueError` and `OverflowError` are raised. -/
theorem readHeaderAt_error (g : GPT) (off loc : Nat) (b b' : Option Nat) (e : Exc)
    (h : g.readHeaderAt off loc b = (.error e, b')) : e = .ValueError ∨ e = .OverflowError := by
  unfold GPT.readHeaderAt at h
  split at h
  · cases h; right; exact error_of_seekRead (by assumption)
  split at h
  · cases h; left; rfl
  split at h
  · cases h; left; rfl
  simp only [Prod.mk.injEq] at h
  have h := h.1
  unfold GPT.checkHeader at h
  rcases error_of_ite h with h | ⟨-, h⟩
  · exact .inl h
  rcases error_of_ite h with h | ⟨-, h⟩
  · exact .inl h
  rcases error_of_ite h with h | ⟨-, h⟩
  · exact .inl h
  rcases error_of_ite h with h | ⟨-, h⟩
  · exact .inl h
  rcases error_of_ite h with h | ⟨-, h⟩
  · exact .inl h
  rcases error_of_ite h with h | ⟨-, h⟩
  · exact .inl h
  rcases error_of_ite h with h | ⟨-, h⟩
  · exact .inl h
  rcases error_of_ite h with h | ⟨-, h⟩
  · exact .inl h
  split at h
  · cases h; right; exact error_of_seekRead (by assumption)
  rcases error_of_ite h with h | ⟨-, h⟩
  · exact .inl h
  rcases error_of_ite h with h | ⟨-, h⟩
  · exact .inl h
  · cases h

theorem partitionAt_slice (b : Bytes) (i j o : Nat) (h : i + (o + 128) ≤ j) :
    decodePartitionEntry (slice (slice b i j) o (o + 128)) = partitionAt b (i + o) := by
  rw [slice_slice _ _ _ _ _ h]
  unfold decodePartitionEntry partitionAt decodePartitionName
  rw [slice_slice _ _ _ _ _ (by omega), slice_slice _ _ _ _ _ (by omega), slice_slice _ _ _ _ _ (by omega),
    u64_slice (by omega), u64_slice (by omega), u64_slice (by omega)]
  simp only [Nat.add_zero]
  split
  · rfl
  · congr 2
    generalize utf16DecodeStrict _ = z
    cases z <;> rfl

theorem partitionsLoop_eq (buf : Bytes) (size : Nat) (hsize : 128 ≤ size) (n i : Nat) (results : List GPTPartition)
    (hl : (i + n) * size ≤ buf.length) :
    partitionsLoop buf size n i results =
      .ok (results ++ (List.range' i n).filterMap fun k => decodePartitionEntry (slice buf (k * size) (k * size + 128))) := by
  induction n generalizing i results with
  | zero => simp [partitionsLoop]
  | succ n ih =>
    have hi : i * size + size ≤ buf.length := by
      have : (i + 1) * size ≤ (i + (n + 1)) * size := Nat.mul_le_mul_right _ (by omega)
      rw [Nat.add_mul, Nat.one_mul] at this
      omega
    have hlen : (slice buf (i * size) (i * size + 128)).length = 128 := by rw [slice_length]; omega
    have hn : (i + 1 + n) * size ≤ buf.length := by
      rw [show i + 1 + n = i + (n + 1) by omega]; exact hl
    unfold partitionsLoop
    dsimp only
    rw [if_neg (by simp [hlen]), List.range'_succ, List.filterMap_cons]
    cases hd : decodePartitionEntry (slice buf (i * size) (i * size + 128)) with
    | none => exact ih _ _ hn
    | some p =>
      dsimp only
      rw [ih _ _ hn]
      simp [List.append_assoc]

theorem slotAt_slice (b : Bytes) (i j o : Nat) (h : i + (o + 16) ≤ j) :
    decodeMbrSlot (slice (slice b i j) o (o + 16)) = slotAt b (i + o) := by
  rw [slice_slice _ _ _ _ _ h]
  unfold decodeMbrSlot slotAt
  rw [slice_slice _ _ _ _ _ (by omega), slice_slice _ _ _ _ _ (by omega), u32_slice (by omega), u32_slice (by omega),
    u8_slice (by omega), u8_slice (by omega)]
  simp only [Nat.add_zero]

theorem readEbr_eq (m : MBR) (lba : Nat) :
    m.readEbr lba = if IsEbr m.volume m.sectorSize lba then
      some (⟨u8 m.volume (lba * m.sectorSize + 446), u8 m.volume (lba * m.sectorSize + 450),
        lba + u32 m.volume (lba * m.sectorSize + 454), u32 m.volume (lba * m.sectorSize + 458)⟩,
        u32 m.volume (lba * m.sectorSize + 470)) else none := by
  unfold MBR.readEbr
  dsimp only
  by_cases hin : lba * m.sectorSize + 512 ≤ m.volume.length
  · rw [if_neg (by rw [slice_length]; omega), u16_slice (by omega)]
    by_cases hs : u16 m.volume (lba * m.sectorSize + 510) = 0xAA55
    · rw [if_neg (by simp [hs]), if_pos ⟨hin, hs⟩, slice_slice _ _ _ _ _ (by omega), slice_slice _ _ _ _ _ (by omega),
        u8_slice (by omega), u8_slice (by omega), u32_slice (by omega), u32_slice (by omega), u32_slice (by omega)]
    · rw [if_pos hs, if_neg (fun h => hs h.2)]
  · rw [if_pos (by rw [slice_length]; omega), if_neg (fun h => hin h.1)]

theorem readEbr_some {m : MBR} {lba : Nat} {p : EBRPartition} {next : Nat} (h : m.readEbr lba = some (p, next)) (first : Nat) :
    IsEbr m.volume m.sectorSize lba ∧
    logicalAt m.volume m.sectorSize lba = (if p.osType ≠ 0 then some p else none) ∧
    nextEbr m.volume m.sectorSize first lba = (if next ≠ 0 then some (first + next) else none) := by
  rw [readEbr_eq] at h
  by_cases he : IsEbr m.volume m.sectorSize lba
  · rw [if_pos he] at h
    simp only [Option.some.injEq, Prod.mk.injEq] at h
    obtain ⟨rfl, rfl⟩ := h
    refine ⟨he, ?_, ?_⟩
    · unfold logicalAt
      simp only [he, true_and]
    · unfold nextEbr
      simp only [he, true_and]
  · rw [if_neg he] at h; cases h

theorem readEbr_none {m : MBR} {lba : Nat} (h : m.readEbr lba = none) (first : Nat) :
    logicalAt m.volume m.sectorSize lba = none ∧ nextEbr m.volume m.sectorSize first lba = none := by
  rw [readEbr_eq] at h
  by_cases he : IsEbr m.volume m.sectorSize lba
  · rw [if_pos he] at h; cases h
  · unfold logicalAt nextEbr
    simp only [he, false_and, if_false, and_self]

/-- The chain loop visits exactly the sectors of the chain. -/
theorem ebrChain_sound (m : MBR) (first : Nat) (fuel relative : Nat)
    (results results' : List EBRPartition) (track track' : List Nat)
    (h : m.ebrChain first fuel relative results track = some (results', track')) :
    ∃ lbas, Chain m.volume m.sectorSize first track (first + relative) lbas ∧
      results' = results ++ lbas.filterMap (logicalAt m.volume m.sectorSize) ∧ track' = lbas.reverse ++ track := by
  induction fuel generalizing relative results track with
  | zero => cases h
  | succ fuel ih =>
    unfold MBR.ebrChain at h
    dsimp only at h
    by_cases hm : first + relative ∈ track
    · rw [if_pos hm] at h
      cases h
      exact ⟨[], .again hm, by simp, by simp⟩
    rw [if_neg hm] at h
    cases hr : m.readEbr (first + relative) with
    | none =>
      rw [hr] at h
      cases h
      obtain ⟨h1, h2⟩ := readEbr_none hr first
      exact ⟨[first + relative], .last hm h2, by simp [h1], rfl⟩
    | some pn =>
      obtain ⟨p, next⟩ := pn
      rw [hr] at h
      dsimp only at h
      obtain ⟨-, h1, h2⟩ := readEbr_some hr first
      have hresults : (if p.osType ≠ 0 then results ++ [p] else results) =
            results ++ [first + relative].filterMap (logicalAt m.volume m.sectorSize) := by
        simp only [List.filterMap_cons, List.filterMap_nil, h1]
        by_cases hc : p.osType ≠ 0
        · rw [if_pos hc, if_pos hc]
        · rw [if_neg hc, if_neg hc, List.append_nil]
      rw [hresults] at h
      by_cases hz : next = 0
      · rw [if_pos hz] at h
        cases h
        exact ⟨[first + relative], .last hm (by rw [h2, if_neg (fun hh => hh hz)]), rfl, rfl⟩
      · rw [if_neg hz] at h
        obtain ⟨lbas, hc, hr, ht⟩ := ih _ _ _ h
        refine ⟨(first + relative) :: lbas, .next hm (by rw [h2, if_pos hz]) hc, ?_, ?_⟩
        · rw [hr, List.append_assoc, ← List.filterMap_append, List.singleton_append]
        · rw [ht]; simp

/-- The chain loop ends within a number of steps that depends on the size of the volume only. -/
theorem ebrChain_terminates (m : MBR) (hss : 512 ≤ m.sectorSize) (first : Nat) (fuel relative : Nat)
    (results : List EBRPartition) (track : List Nat) (hn : track.Nodup)
    (hf : m.volume.length + 2 ≤ fuel + (track.filter (· ≤ m.volume.length)).length) :
    ∃ r, m.ebrChain first fuel relative results track = some r := by
  induction fuel generalizing relative results track with
  | zero =>
    exfalso
    have := nodup_bounded_length (m.volume.length + 1) (track.filter (· ≤ m.volume.length)) (hn.filter _) (by
      intro x hx
      have := (List.mem_filter.1 hx).2
      simp at this
      omega)
    omega
  | succ fuel ih =>
    unfold MBR.ebrChain
    dsimp only
    split
    · exact ⟨_, rfl⟩
    rename_i hnm
    rw [readEbr_eq m]
    by_cases he : IsEbr m.volume m.sectorSize (first + relative)
    · rw [if_pos he]
      dsimp only
      split
      · exact ⟨_, rfl⟩
      · apply ih
        · exact List.nodup_cons.2 ⟨hnm, hn⟩
        · have hle : first + relative ≤ m.volume.length := by
            have h1 := he.1
            have h2 : (first + relative) * 1 ≤ (first + relative) * m.sectorSize := Nat.mul_le_mul_left _ (by omega)
            omega
          rw [List.filter_cons_of_pos (by simpa using hle), List.length_cons]
          omega
    · rw [if_neg he]; exact ⟨_, rfl⟩

end Verif.PartitionTable
