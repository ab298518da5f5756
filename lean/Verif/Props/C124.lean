/-
Property C124: the exceptions of reading partition tables.
-/
import Verif.Props.C46_C49
namespace Verif.Props
open Verif.PartitionTable Verif.Spec.PartitionTable

theorem checkHeader_error {g : GPT} {buf : Bytes} {off location : Nat} {e : Exc} (hvol : g.volume.length < 2 ^ 63) (h : g.checkHeader buf off location = .error e) :
    e = .ValueError ∨ (e = .OverflowError ∧ 2 ^ 63 ≤ u32 buf 80 * u32 buf 84) := by
  unfold GPT.checkHeader at h
  split at h
  · cases h; exact .inl rfl
  split at h
  · cases h; exact .inl rfl
  split at h
  · cases h; exact .inl rfl
  split at h
  · cases h; exact .inl rfl
  split at h
  · cases h; exact .inl rfl
  split at h
  · cases h; exact .inl rfl
  split at h
  · cases h; exact .inl rfl
  rename_i hlba
  split at h
  · cases h; exact .inl rfl
  unfold seekRead at h
  by_cases hbig : u64 buf 72 * g.sectorSize ≥ 2 ^ 63 ∨ u32 buf 80 * u32 buf 84 ≥ 2 ^ 63
  · rw [if_pos hbig] at h
    cases h
    refine .inr ⟨rfl, hbig.resolve_left ?_⟩
    have : (u64 buf 72 * g.sectorSize : Int) = ((u64 buf 72 * g.sectorSize : Nat) : Int) := by rw [Int.natCast_mul]
    rw [this] at hlba
    omega
  · rw [if_neg hbig] at h
    dsimp only at h
    split at h
    · cases h; exact .inl rfl
    split at h
    · cases h; exact .inl rfl
    · cases h

theorem readHeaderAt_error {g : GPT} {off location : Nat} {b : Option Nat} {e : Exc} (hss : g.sectorSize < 2 ^ 63) (hvol : g.volume.length < 2 ^ 63)
    (h : (g.readHeaderAt off location b).1 = .error e) :
    e = .ValueError ∨ (e = .OverflowError ∧ (2 ^ 63 ≤ off ∨
      (SignedAt g.volume g.sectorSize off ∧ 2 ^ 63 ≤ u32 (slice g.volume off (off + g.sectorSize)) 80 * u32 (slice g.volume off (off + g.sectorSize)) 84))) := by
  unfold GPT.readHeaderAt seekRead at h
  by_cases hbig : off ≥ 2 ^ 63 ∨ g.sectorSize ≥ 2 ^ 63
  · rw [if_pos hbig] at h
    cases h
    exact .inr ⟨rfl, .inl (by omega)⟩
  · rw [if_neg hbig] at h
    dsimp only at h
    split at h
    · cases h; exact .inl rfl
    rename_i hlen
    split at h
    · cases h; exact .inl rfl
    · rename_i hsig
      rcases checkHeader_error hvol h with h | ⟨h1, h2⟩
      · exact .inl h
      · refine .inr ⟨h1, .inr ⟨⟨?_, ?_⟩, h2⟩⟩
        · have := Decidable.of_not_not hlen
          rw [slice_length] at this
          by_cases h0 : g.sectorSize = 0
          · have hs := Decidable.of_not_not hsig
            have := congrArg List.length hs
            rw [h0, Nat.add_zero, slice_length, slice_length] at this
            have h8 : ([0x45, 0x46, 0x49, 0x20, 0x50, 0x41, 0x52, 0x54] : Bytes).length = 8 := rfl
            omega
          · omega
        · have hs := Decidable.of_not_not hsig
          by_cases h8 : 8 ≤ g.sectorSize
          · rw [slice_slice _ _ _ _ _ (by omega)] at hs
            exact hs
          · have := congrArg List.length hs
            rw [slice_length, slice_length] at this
            have h8 : ([0x45, 0x46, 0x49, 0x20, 0x50, 0x41, 0x52, 0x54] : Bytes).length = 8 := rfl
            omega

/-- C124: what the exception of reading the header of a GPT says.  It is ValueError, or it is OverflowError: then the last sector of the disk has the
signature of a header, and in this header the number of partition entries times their size is 2^63 or more. -/
theorem C124_header_errors (disk : Bytes) (ss : Nat) (g : GPT) (hg : GPT.init disk ss = .ok g) (hvol : disk.length < 2 ^ 63) (before : Option Nat) (e : Exc)
    (h : (g.readHeader before).1 = .error e) :
    e = .ValueError ∨ (e = .OverflowError ∧ SignedAt disk ss (disk.length - ss) ∧
      2 ^ 63 ≤ u32 disk (disk.length - ss + 80) * u32 disk (disk.length - ss + 84)) := by
  obtain ⟨rfl, rfl, h1, h2⟩ := GPT.init_ok hg
  have last : ∀ b, (g.readHeaderInternal true none b).1 = .error e →
      e = .ValueError ∨ (e = .OverflowError ∧ SignedAt g.volume g.sectorSize (g.volume.length - g.sectorSize) ∧
        2 ^ 63 ≤ u32 g.volume (g.volume.length - g.sectorSize + 80) * u32 g.volume (g.volume.length - g.sectorSize + 84)) := by
    intro b h
    unfold GPT.readHeaderInternal at h
    rw [if_neg (by decide)] at h
    dsimp only at h
    rcases readHeaderAt_error (by omega) hvol h with h | ⟨h3, h4⟩
    · exact .inl h
    · refine .inr ⟨h3, ?_⟩
      rcases h4 with h4 | ⟨h4, h5⟩
      · omega
      · unfold u32 at h5 ⊢
        rw [slice_slice _ _ _ _ _ (by omega), slice_slice _ _ _ _ _ (by omega)] at h5
        exact ⟨h4, h5⟩
  have caught : ∀ {off location : Nat} {b : Option Nat} {e' : Exc}, (g.readHeaderAt off location b).1 = .error e' → caughtByHeader e' = true := by
    intro off location b e' h
    rcases readHeaderAt_error (by omega) hvol h with h | ⟨h, -⟩ <;> rw [h] <;> decide
  unfold GPT.readHeader at h
  split at h
  · cases h
  · rename_i e' b he
    have hc : caughtByHeader e' = true := by
      unfold GPT.readHeaderInternal at he
      rw [if_pos rfl] at he
      exact caught (by rw [he])
    rw [if_pos hc] at h
    split at h
    · split at h
      · cases h
      · rename_i e'' b' he'
        have hc' : caughtByHeader e'' = true := by
          unfold GPT.readHeaderInternal at he'
          rw [if_neg (by decide)] at he'
          dsimp only at he'
          exact caught (by rw [he'])
        rw [if_pos hc'] at h
        exact last _ h
    · exact last _ h

/-- C124, the part of the claim that holds: when the last sector of the disk is not such a header, reading the header gives a header or ValueError. -/
theorem C124_header_partial (disk : Bytes) (ss : Nat) (g : GPT) (hg : GPT.init disk ss = .ok g) (hvol : disk.length < 2 ^ 63) (before : Option Nat)
    (hlast : u32 disk (disk.length - ss + 80) * u32 disk (disk.length - ss + 84) < 2 ^ 63) :
    (∃ h, (g.readHeader before).1 = .ok h) ∨ (g.readHeader before).1 = .error .ValueError := by
  cases hr : (g.readHeader before).1 with
  | ok h => exact .inl ⟨h, rfl⟩
  | error e =>
    rcases C124_header_errors disk ss g hg hvol before e hr with h | ⟨-, -, h⟩
    · rw [h]; exact .inr rfl
    · omega

theorem partitionsLoop_ok {buf : Bytes} {size : Nat} (hs : 128 ≤ size) (n i : Nat) (hl : (i + n) * size ≤ buf.length) (results : List GPTPartition) :
    ∃ l, partitionsLoop buf size n i results = .ok l := by
  induction n generalizing i results with
  | zero => exact ⟨_, rfl⟩
  | succ n ih =>
    have h1 : (i + 1 + n) * size ≤ buf.length := by rw [show i + 1 + n = i + (n + 1) by omega]; exact hl
    have h2 : (i + 1) * size ≤ buf.length := Nat.le_trans (Nat.mul_le_mul_right _ (by omega)) h1
    rw [Nat.add_mul] at h2
    rw [partitionsLoop]
    rw [if_neg (by rw [slice_length]; omega)]
    split
    · exact ih (i + 1) h1 _
    · exact ih (i + 1) h1 _

/-- C124: reading the partition entries, for any place, number, size and checksum, gives a list, ValueError, or (only when the number times the size is 2^63 or
more) OverflowError.  A short entry is never decoded. -/
theorem C124_partitions_errors (disk : Bytes) (ss : Nat) (g : GPT) (hg : GPT.init disk ss = .ok g) (hvol : disk.length < 2 ^ 63) (lba number size crc : Nat) (e : Exc)
    (h : g.readPartitions lba number size crc = .error e) : e = .ValueError ∨ (e = .OverflowError ∧ 2 ^ 63 ≤ number * size) := by
  obtain ⟨rfl, rfl, h1, h2⟩ := GPT.init_ok hg
  unfold GPT.readPartitions at h
  split at h
  · cases h
  split at h
  · cases h; exact .inl rfl
  rename_i hlba
  split at h
  · cases h; exact .inl rfl
  rename_i hsize
  unfold seekRead at h
  by_cases hbig : lba * g.sectorSize ≥ 2 ^ 63 ∨ number * size ≥ 2 ^ 63
  · rw [if_pos hbig] at h
    cases h
    refine .inr ⟨rfl, hbig.resolve_left ?_⟩
    have : (lba * g.sectorSize : Int) = ((lba * g.sectorSize : Nat) : Int) := by rw [Int.natCast_mul]
    rw [this] at hlba
    omega
  · rw [if_neg hbig] at h
    dsimp only at h
    split at h
    · cases h; exact .inl rfl
    rename_i hlen
    split at h
    · cases h; exact .inl rfl
    · obtain ⟨l, hl⟩ := partitionsLoop_ok (buf := slice g.volume (lba * g.sectorSize) (lba * g.sectorSize + number * size)) (size := size) (by omega) number 0
        (by rw [Nat.zero_add, Decidable.of_not_not hlen]; exact Nat.le_refl _) []
      rw [hl] at h
      cases h

/-- C124: on a disk that is accepted, reading the master boot record gives ValueError exactly when it is not signed, and there is no other exception; the lists of
partitions are read without any. -/
theorem C124_mbr (disk : Bytes) (ss : Nat) (m : MBR) (hm : MBR.init disk ss = .ok m) :
    (∀ e, m.readMbr = .error e → e = .ValueError ∧ u16 disk 510 ≠ 0xAA55) ∧ (u16 disk 510 ≠ 0xAA55 → m.readMbr = .error .ValueError) ∧
    (∃ l, m.readPartitions = .ok l) ∧ ∀ fuel, ∃ l, m.readEbrPartitions fuel = .ok l := by
  unfold MBR.init at hm
  obtain ⟨h1, hm⟩ := of_ite_error hm
  obtain ⟨h2, hm⟩ := of_ite_error hm
  cases hm
  have hl : (slice disk 0 512).length = 512 := by rw [slice_length]; omega
  have h510 : u16 (slice disk 0 512) 510 = u16 disk 510 := by unfold u16; rw [slice_slice _ _ _ _ _ (by omega)]
  have hp : ∃ l, MBR.readPartitions ⟨disk, ss⟩ = .ok l := by
    unfold MBR.readPartitions
    dsimp only
    rw [if_neg (fun h => h hl)]
    exact ⟨_, rfl⟩
  refine ⟨?_, ?_, hp, ?_⟩
  · intro e h
    unfold MBR.readMbr at h
    dsimp only at h
    rw [if_neg (fun h => h hl), h510] at h
    split at h
    · cases h; exact ⟨rfl, by assumption⟩
    · cases h
  · intro h
    unfold MBR.readMbr
    dsimp only
    rw [if_neg (fun h => h hl), h510, if_pos h]
  · intro fuel
    obtain ⟨l, hl⟩ := hp
    unfold MBR.readEbrPartitions
    rw [hl]
    exact ⟨_, rfl⟩

/-- C124: a disk is refused by the constructors with ValueError only. -/
theorem C124_opening (disk : Bytes) (ss : Nat) (e : Exc) :
    (GPT.init disk ss = .error e ↔ e = .ValueError ∧ (ss < 512 ∨ ss % 512 ≠ 0 ∨ disk.length < 3 * ss + 2 * 16384)) ∧
    (MBR.init disk ss = .error e ↔ e = .ValueError ∧ (ss < 512 ∨ ss % 512 ≠ 0 ∨ disk.length < 2 * ss)) := by
  constructor
  · unfold GPT.init
    by_cases h1 : ss < 512 ∨ ss % 512 ≠ 0
    · rw [if_pos h1]; exact ⟨(fun h => by cases h; exact ⟨rfl, by omega⟩), (fun h => by rw [h.1])⟩
    · rw [if_neg h1]
      by_cases h2 : disk.length < 3 * ss + 2 * 16384
      · rw [if_pos h2]; exact ⟨(fun h => by cases h; exact ⟨rfl, by omega⟩), (fun h => by rw [h.1])⟩
      · rw [if_neg h2]; exact ⟨(fun h => by cases h), (fun h => by omega)⟩
  · unfold MBR.init
    by_cases h1 : ss < 512 ∨ ss % 512 ≠ 0
    · rw [if_pos h1]; exact ⟨(fun h => by cases h; exact ⟨rfl, by omega⟩), (fun h => by rw [h.1])⟩
    · rw [if_neg h1]
      by_cases h2 : disk.length < 2 * ss
      · rw [if_pos h2]; exact ⟨(fun h => by cases h; exact ⟨rfl, by omega⟩), (fun h => by rw [h.1])⟩
      · rw [if_neg h2]; exact ⟨(fun h => by cases h), (fun h => by omega)⟩

/-! ### A disk for which the exception is OverflowError -/

/-- A header for the last sector of a disk of 67 sectors, with 2^32 - 1 partition entries of 2^32 - 128 bytes. -/
def hugeSector : Bytes :=
  [0x45, 0x46, 0x49, 0x20, 0x50, 0x41, 0x52, 0x54, 0, 0, 1, 0, 92, 0, 0, 0] ++ natLE 4 2467773775 ++ natLE 4 0 ++ natLE 8 66 ++
    natLE 8 1 ++ natLE 8 34 ++ natLE 8 65 ++ zeros 16 ++ natLE 8 2 ++ natLE 4 0xFFFFFFFF ++ natLE 4 0xFFFFFF80 ++ natLE 4 0 ++ zeros 420

def hugeDisk : Bytes := zeros (66 * 512) ++ hugeSector

theorem hugeDisk_length : hugeDisk.length = 67 * 512 := by
  unfold hugeDisk
  rw [List.length_append, zeros_length, show hugeSector.length = 512 by decide +kernel]

/-- C124 fails as stated: a disk whose only header (in its last sector, with valid checksums) has such an array gives OverflowError, which is
caught for the other two places of a header, but not for this one. -/
theorem C124_overflow : GPT.init hugeDisk 512 = .ok ⟨hugeDisk, 512⟩ ∧ ((⟨hugeDisk, 512⟩ : GPT).readHeader none).1 = .error .OverflowError := by
  have hl := hugeDisk_length
  have hz : (zeros (66 * 512)).length = 66 * 512 := zeros_length _
  constructor
  · unfold GPT.init
    rw [hl, if_neg (by decide), if_neg (by decide)]
  · have hfirst : slice hugeDisk 512 1024 = zeros 512 := by
      unfold hugeDisk
      rw [slice_append_left _ _ _ _ (by omega)]
      unfold slice zeros
      rw [List.drop_replicate, List.take_replicate]
      rfl
    have hlast : slice hugeDisk (66 * 512) (67 * 512) = hugeSector := by
      unfold hugeDisk
      rw [slice_append_right _ _ _ _ (by omega), hz, Nat.sub_self]
      exact (show slice hugeSector 0 512 = hugeSector by decide +kernel)
    have h1 : (⟨hugeDisk, 512⟩ : GPT).readHeaderInternal false none none = (.error .ValueError, none) := by
      unfold GPT.readHeaderInternal GPT.readHeaderAt seekRead
      rw [if_pos rfl, if_neg (by decide)]
      dsimp only
      rw [hfirst, if_neg (by decide +kernel), if_pos (by decide +kernel)]
    have h2 : ((⟨hugeDisk, 512⟩ : GPT).readHeaderInternal true none none).1 = .error .OverflowError := by
      unfold GPT.readHeaderInternal GPT.readHeaderAt seekRead
      dsimp only
      rw [if_neg (by decide), hl, if_neg (by decide)]
      dsimp only
      rw [hlast, if_neg (by decide +kernel), if_neg (by decide +kernel)]
      unfold GPT.checkHeader seekRead
      dsimp only
      rw [hl, if_neg (by decide +kernel), if_neg (by decide +kernel), if_neg (by decide +kernel), if_neg (by decide +kernel), if_neg (by decide +kernel),
        if_neg (by decide +kernel), if_neg (by decide +kernel), if_neg (by decide +kernel), if_pos (by decide +kernel)]
    unfold GPT.readHeader
    rw [h1]
    dsimp only
    rw [if_pos (by decide)]
    exact h2

/-- A disk of zeros has no header: ValueError. -/
example : GPT.init (demoGptDisk (zeros 512)) 512 = .ok ⟨demoGptDisk (zeros 512), 512⟩ := by
  unfold GPT.init
  rw [if_neg (by decide), demoGptDisk_length (zeros_length _), if_neg (by decide)]
/-- A master boot record without a signature. -/
example : MBR.init (zeros 1024) 512 = .ok ⟨zeros 1024, 512⟩ ∧ u16 (zeros 1024) 510 ≠ 0xAA55 := ⟨by decide +kernel, by decide +kernel⟩

end Verif.Props
