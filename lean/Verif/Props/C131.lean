/-
Property C131: reading the GPT header again (dfir_ntfs/PartitionTable.py:150-166).
-/
import Verif.Props.C46_C49
namespace Verif.Props
open Verif.PartitionTable Verif.Spec.PartitionTable

/-- What is found at a place does not depend on the remembered place of the backup. -/
theorem readHeaderAt_result (g : GPT) (off loc : Nat) (b b' : Option Nat) :
    (g.readHeaderAt off loc b).1 = (g.readHeaderAt off loc b').1 := by
  unfold GPT.readHeaderAt
  split
  · rfl
  · split
    · rfl
    · split <;> rfl

theorem readHeaderAt_caught (g : GPT) (off loc : Nat) (b : Option Nat) {e : Exc} (h : (g.readHeaderAt off loc b).1 = .error e) :
    caughtByHeader e = true := by
  rcases readHeaderAt_error g off loc b (g.readHeaderAt off loc b).2 e (Prod.ext h rfl) with rfl | rfl <;> rfl

theorem readHeaderAt_consistent (g : GPT) (hss : 512 ≤ g.sectorSize) (hvol : g.volume.length < 2 ^ 63) (off loc : Nat) (b : Option Nat)
    (hd : GPTHeader) (h : (g.readHeaderAt off loc b).1 = .ok hd) : ConsistentAt g.volume g.sectorSize off hd :=
  ((readHeaderAt_ok_iff g hss hvol off loc b (g.readHeaderAt off loc b).2 hd).1 (Prod.ext h rfl)).1

/-- No header is found where there is no signature. -/
theorem readHeaderAt_unsigned (g : GPT) (hss : 512 ≤ g.sectorSize) (hvol : g.volume.length < 2 ^ 63) (off loc : Nat) (b : Option Nat)
    (hs : ¬ SignedAt g.volume g.sectorSize off) : ∃ e, (g.readHeaderAt off loc b).1 = .error e := by
  cases h : (g.readHeaderAt off loc b).1 with
  | error e => exact ⟨e, rfl⟩
  | ok hd => exact absurd (readHeaderAt_consistent g hss hvol off loc b hd h).signed hs

/-- The part of a reading that follows a refused primary header. -/
theorem readHeader_of_refused (g : GPT) (b : Option Nat) {e : Exc} (h : (g.readHeaderAt g.sectorSize 0 b).1 = .error e) :
    g.readHeader b =
      match (g.readHeaderAt g.sectorSize 0 b).2 with
      | some lba =>
        match (g.readHeaderAt (lba * g.sectorSize) 2 (some lba)).1 with
        | .ok hd => (.ok hd, (g.readHeaderAt (lba * g.sectorSize) 2 (some lba)).2)
        | .error _ => g.readHeaderAt (g.volume.length - g.sectorSize) 1 (g.readHeaderAt (lba * g.sectorSize) 2 (some lba)).2
      | none => g.readHeaderAt (g.volume.length - g.sectorSize) 1 none := by
  unfold GPT.readHeader GPT.readHeaderInternal
  rw [if_pos rfl]
  have hc := readHeaderAt_caught g _ _ _ h
  cases h1 : g.readHeaderAt g.sectorSize 0 b with
  | mk r1 b1 =>
    rw [h1] at h
    dsimp only at h
    subst h
    dsimp only
    rw [if_pos hc]
    cases b1 with
    | none => rfl
    | some lba =>
      dsimp only
      rw [if_neg (by decide)]
      have hc2 := fun e' => readHeaderAt_caught g (lba * g.sectorSize) 2 (some lba) (e := e')
      cases h2 : g.readHeaderAt (lba * g.sectorSize) 2 (some lba) with
      | mk r2 b2 =>
        rw [h2] at hc2
        cases r2 with
        | ok hd => rfl
        | error e' =>
          dsimp only
          rw [if_pos (hc2 e' rfl)]
          rfl

/-- When the second sector is signed, what it records replaces whatever was remembered. -/
theorem readHeader_signed (g : GPT) (hss : 512 ≤ g.sectorSize) (hvol : g.volume.length < 2 ^ 63)
    (hs : SignedAt g.volume g.sectorSize g.sectorSize) (b b' : Option Nat) : g.readHeader b = g.readHeader b' := by
  have hb : ∀ b, (g.readHeaderAt g.sectorSize 0 b).2 = some (u64 g.volume (g.sectorSize + 32)) := by
    intro b
    rw [readHeaderAt_backup g hss hvol, if_pos hs]
  have heq : g.readHeaderAt g.sectorSize 0 b = g.readHeaderAt g.sectorSize 0 b' :=
    Prod.ext (readHeaderAt_result ..) ((hb b).trans (hb b').symm)
  unfold GPT.readHeader GPT.readHeaderInternal
  rw [if_pos rfl, if_pos rfl, heq]

theorem readHeaders_const (g : GPT) (P : Option Nat → Prop) (r : Except Exc GPTHeader)
    (step : ∀ b, P b → (g.readHeader b).1 = r ∧ P (g.readHeader b).2) :
    ∀ n b, P b → g.readHeaders n b = List.replicate n r
  | 0, _, _ => rfl
  | n + 1, b, hb => by
    show (g.readHeader b).1 :: g.readHeaders n (g.readHeader b).2 = _
    rw [(step b hb).1, readHeaders_const g P r step n _ (step b hb).2]
    rfl

/-- C131, as far as it holds: every call gives what the first one gave, when the second sector has a
signature, or the last one has none, or the last one records the second one (LBA 1) as the other copy.
What is missing are the other disks, and `C131_other_header` and `C131_found_later` show that the
statement is false of the code for some of them. -/
theorem C131_again_partial (disk : Bytes) (ss : Nat) (g : GPT) (hg : GPT.init disk ss = .ok g) (hvol : disk.length < 2 ^ 63)
    (hd : SignedAt disk ss ss ∨ ¬ SignedAt disk ss (disk.length - ss) ∨ u64 disk (disk.length - ss + 32) = 1) (n : Nat) :
    g.readHeaders n = List.replicate n (g.readHeader none).1 := by
  obtain ⟨rfl, rfl, h1, -⟩ := GPT.init_ok hg
  by_cases hs : SignedAt g.volume g.sectorSize g.sectorSize
  · refine readHeaders_const g (fun _ => True) _ (fun b _ => ⟨?_, trivial⟩) n none trivial
    rw [readHeader_signed g h1 hvol hs b none]
  · replace hd := hd.resolve_left hs
    have hb : ∀ b loc, (g.readHeaderAt g.sectorSize loc b).2 = b := fun b loc => by
      rw [readHeaderAt_backup g h1 hvol, if_neg hs]
    have hr : ∀ b loc, ∃ e, (g.readHeaderAt g.sectorSize loc b).1 = .error e := by
      intro b loc
      exact readHeaderAt_unsigned g h1 hvol _ loc b hs
    have hl := fun b => readHeaderAt_backup g h1 hvol (g.volume.length - g.sectorSize) 1 b
    refine readHeaders_const g (fun b => b = none ∨ b = some 1) _ (fun b hbb => ?_) n none (.inl rfl)
    obtain ⟨e, he⟩ := hr b 0
    obtain ⟨e0, he0⟩ := hr none 0
    rw [readHeader_of_refused g b he, readHeader_of_refused g none he0, hb, hb]
    have hlast : ∀ b, (b = none ∨ b = some 1) →
        (g.readHeaderAt (g.volume.length - g.sectorSize) 1 b).1 = (g.readHeaderAt (g.volume.length - g.sectorSize) 1 none).1 ∧
        ((g.readHeaderAt (g.volume.length - g.sectorSize) 1 b).2 = none ∨
          (g.readHeaderAt (g.volume.length - g.sectorSize) 1 b).2 = some 1) := by
      intro b hbb
      refine ⟨readHeaderAt_result .., ?_⟩
      rw [hl]
      split
      · rename_i hsl
        right
        rw [hd.resolve_left (fun h => h hsl)]
      · exact hbb
    rcases hbb with rfl | rfl
    · exact hlast none (.inl rfl)
    · dsimp only
      obtain ⟨e2, he2⟩ := hr (some 1) 2
      rw [Nat.one_mul, he2, hb]
      exact hlast (some 1) (.inr rfl)

/-- A disk of 68 sectors with the given sectors 40 and 67, for examples. -/
def twoHeaderDisk (s t : Bytes) : Bytes := zeros 20480 ++ (s ++ (zeros 13312 ++ t))

/-- A header sector for LBA `my`. -/
def headerSector (my other first last crc : Nat) : Bytes :=
  [0x45, 0x46, 0x49, 0x20, 0x50, 0x41, 0x52, 0x54, 0, 0, 1, 0, 92, 0, 0, 0] ++ natLE 4 crc ++ natLE 4 0 ++ natLE 8 my ++
    natLE 8 other ++ natLE 8 first ++ natLE 8 last ++ zeros 16 ++ natLE 8 2 ++ natLE 4 0 ++ natLE 4 128 ++ natLE 4 0 ++ zeros 420

/-- What makes a sector a consistent header without partition entries at LBA `lba`. -/
def HeaderSectorOk (s : Bytes) (lba : Nat) (h : GPTHeader) : Prop :=
  s.length = 512 ∧ slice s 0 8 = gptSignature ∧ u32 s 8 ≠ 0 ∧ u32 s 12 = 92 ∧
  crc32 (slice s 0 16 ++ zeros 4 ++ slice s 20 92) = u32 s 16 ∧ u64 s 24 = lba ∧ u64 s 32 ≠ lba ∧ u64 s 32 ≠ 0 ∧ u64 s 72 = 2 ∧
  u32 s 80 = 0 ∧ u32 s 84 = 128 ∧ u32 s 88 = 0 ∧ 33 < u64 s 40 ∧
  h = ⟨h.location, u64 s 40, u64 s 48, slice s 56 72, 2, 0, 128, 0⟩

instance (s : Bytes) (lba : Nat) (h : GPTHeader) : Decidable (HeaderSectorOk s lba h) := by unfold HeaderSectorOk; infer_instance

theorem consistent_of_sector (disk s : Bytes) (lba : Nat) (h : GPTHeader) (hin : lba * 512 + 512 ≤ disk.length)
    (hdl : 2000 ≤ disk.length) (hs : ∀ i j, j ≤ 512 → slice disk (lba * 512 + i) (lba * 512 + j) = slice s i j)
    (hok : HeaderSectorOk s lba h) : ConsistentAt disk 512 (lba * 512) h := by
  obtain ⟨hlen, hsig, k8, k12, kcrc, k24, k32, k32', k72, k80, k84, k88, k40, hh⟩ := hok
  have w32 : ∀ i, i + 4 ≤ 512 → u32 disk (lba * 512 + i) = u32 s i :=
    fun i hi => by unfold u32; rw [Nat.add_assoc, hs i (i + 4) hi]
  have w64 : ∀ i, i + 8 ≤ 512 → u64 disk (lba * 512 + i) = u64 s i :=
    fun i hi => by unfold u64; rw [Nat.add_assoc, hs i (i + 8) hi]
  have a0 := hs 0 8 (by omega)
  have a1 := hs 0 16 (by omega)
  have a2 := hs 20 92 (by omega)
  rw [Nat.add_zero] at a0 a1
  rw [hh]
  refine ⟨⟨by omega, by rw [a0, hsig]⟩, by rw [w32 8 (by omega)]; exact k8, by rw [w32 12 (by omega), k12]; decide,
    by rw [w32 12 (by omega), k12]; decide, by rw [w32 12 (by omega), k12, w32 16 (by omega), a1, a2, kcrc],
    by rw [w64 24 (by omega), k24], by rw [w64 24 (by omega), w64 32 (by omega), k24]; exact ⟨k32, k32'⟩,
    ⟨(w64 40 (by omega)).symm, ?_⟩, (w64 48 (by omega)).symm, (hs 56 72 (by omega)).symm,
    ⟨by rw [w64 72 (by omega), k72], ?_, ?_⟩, by rw [w32 80 (by omega), k80],
    ⟨by rw [w32 84 (by omega), k84], ?_, ?_⟩, ?_, ⟨by rw [w32 88 (by omega), k88], ?_⟩⟩
  · show 16384 + 2 * 512 < (u64 s 40 + 1) * 512
    omega
  · show 1 < 2
    decide
  · show 2 * 512 + 512 < _
    omega
  · show 0 < 128
    decide
  · show 128 ∣ 128
    decide
  · show 2 * 512 + 0 * 128 ≤ _
    omega
  · show crc32 (slice _ (2 * 512) (2 * 512 + 0 * 128)) = 0
    rw [slice_eq_nil_of_le (by omega)]
    decide +kernel

theorem twoHeaderDisk_length {s t : Bytes} (hs : s.length = 512) (ht : t.length = 512) : (twoHeaderDisk s t).length = 34816 := by
  simp only [twoHeaderDisk, List.length_append, hs, ht, zeros_length]

theorem twoHeaderDisk_40 {s t : Bytes} (hs : s.length = 512) (i j : Nat) (hj : j ≤ 512) :
    slice (twoHeaderDisk s t) (40 * 512 + i) (40 * 512 + j) = slice s i j := by
  unfold twoHeaderDisk
  have hz : (zeros 20480).length = 20480 := zeros_length _
  rw [slice_append_right _ _ _ _ (by omega), slice_append_left _ _ _ _ (by omega), hz,
    show 40 * 512 + i - 20480 = i by omega, show 40 * 512 + j - 20480 = j by omega]

theorem twoHeaderDisk_67 {s t : Bytes} (hs : s.length = 512) (i j : Nat) :
    slice (twoHeaderDisk s t) (67 * 512 + i) (67 * 512 + j) = slice t i j := by
  unfold twoHeaderDisk
  have hz : (zeros 20480).length = 20480 := zeros_length _
  have hz' : (zeros 13312).length = 13312 := zeros_length _
  rw [slice_append_right _ _ _ _ (by omega), slice_append_right _ _ _ _ (by omega), slice_append_right _ _ _ _ (by omega), hz, hz', hs,
    show 67 * 512 + i - 20480 - 512 - 13312 = i by omega, show 67 * 512 + j - 20480 - 512 - 13312 = j by omega]

theorem twoHeaderDisk_unsigned (s t : Bytes) : ¬ SignedAt (twoHeaderDisk s t) 512 512 := by
  intro h
  have h2 := h.2
  unfold twoHeaderDisk at h2
  have hz : (zeros 20480).length = 20480 := zeros_length _
  rw [slice_append_left _ _ _ _ (by omega)] at h2
  have hz8 : slice (zeros 20480) 512 (512 + 8) = zeros 8 := by
    show slice (List.replicate 20480 0) 512 520 = List.replicate 8 0
    unfold slice
    rw [List.drop_replicate, List.take_replicate]
    rfl
  rw [hz8] at h2
  revert h2
  decide

theorem twoHeaderDisk_init {s t : Bytes} (hs : s.length = 512) (ht : t.length = 512) :
    GPT.init (twoHeaderDisk s t) 512 = .ok ⟨twoHeaderDisk s t, 512⟩ := by
  unfold GPT.init
  rw [if_neg (by decide), twoHeaderDisk_length hs ht, if_neg (by decide)]

/-- What two calls give on such a disk: the first one reads sector 67 only, the second one tries sector
40 first if sector 67 is signed and names it. -/
theorem twoHeaderDisk_calls (s t : Bytes) (h40 : GPTHeader) (hs : HeaderSectorOk s 40 h40) (hl : h40.location = 2) (ht : t.length = 512)
    (hsig : slice t 0 8 = gptSignature) (ho : u64 t 32 = 40) :
    (⟨twoHeaderDisk s t, 512⟩ : GPT).readHeaders 2 =
      [((⟨twoHeaderDisk s t, 512⟩ : GPT).readHeaderAt (67 * 512) 1 none).1, .ok h40] := by
  have hlen := twoHeaderDisk_length hs.1 ht
  have hun := twoHeaderDisk_unsigned s t
  have hv : (⟨twoHeaderDisk s t, 512⟩ : GPT).volume.length < 2 ^ 63 := by
    show (twoHeaderDisk s t).length < 2 ^ 63
    rw [hlen]; decide
  have hss : 512 ≤ (⟨twoHeaderDisk s t, 512⟩ : GPT).sectorSize := by show 512 ≤ 512; decide
  have hc : ConsistentAt (twoHeaderDisk s t) 512 (40 * 512) h40 :=
    consistent_of_sector _ s 40 h40 (by omega) (by omega) (fun i j hj => twoHeaderDisk_40 hs.1 i j hj) hs
  have hr : ∀ b, ∃ e, ((⟨twoHeaderDisk s t, 512⟩ : GPT).readHeaderAt 512 0 b).1 = .error e := by
    intro b
    exact readHeaderAt_unsigned ⟨twoHeaderDisk s t, 512⟩ hss hv 512 0 b hun
  have hb : ∀ b, ((⟨twoHeaderDisk s t, 512⟩ : GPT).readHeaderAt 512 0 b).2 = b := fun b => by
    rw [readHeaderAt_backup _ hss hv, if_neg hun]
  have a0 := twoHeaderDisk_67 (s := s) (t := t) hs.1 0 8
  have a32 := twoHeaderDisk_67 (s := s) (t := t) hs.1 32 40
  have hsl : SignedAt (twoHeaderDisk s t) 512 (67 * 512) := ⟨by omega, by rw [Nat.add_zero] at a0; rw [a0, hsig]⟩
  have hlast : ((⟨twoHeaderDisk s t, 512⟩ : GPT).readHeaderAt (67 * 512) 1 none).2 = some 40 := by
    rw [readHeaderAt_backup _ hss hv, if_pos hsl]
    show some (u64 (twoHeaderDisk s t) (67 * 512 + 32)) = _
    unfold u64
    rw [Nat.add_assoc, a32]
    exact congrArg some ho
  have hat : ((⟨twoHeaderDisk s t, 512⟩ : GPT).volume.length - 512) = 67 * 512 := by
    show (twoHeaderDisk s t).length - 512 = _
    rw [hlen]
  have h1 : (⟨twoHeaderDisk s t, 512⟩ : GPT).readHeader none = (⟨twoHeaderDisk s t, 512⟩ : GPT).readHeaderAt (67 * 512) 1 none := by
    obtain ⟨e, he⟩ := hr none
    rw [readHeader_of_refused _ none he]
    dsimp only
    rw [hb, ← hat]
  have h2 : ((⟨twoHeaderDisk s t, 512⟩ : GPT).readHeader (some 40)).1 = .ok h40 := by
    obtain ⟨e, he⟩ := hr (some 40)
    rw [readHeader_of_refused _ (some 40) he]
    dsimp only
    rw [hb]
    dsimp only
    rw [(readHeaderAt_ok_iff _ hss hv (40 * 512) 2 (some 40) (some (u64 (twoHeaderDisk s t) (40 * 512 + 32))) h40).2 ⟨hc, hl, rfl⟩]
  show [((⟨twoHeaderDisk s t, 512⟩ : GPT).readHeader none).1, ((⟨twoHeaderDisk s t, 512⟩ : GPT).readHeader ((⟨twoHeaderDisk s t, 512⟩ : GPT).readHeader none).2).1] = _
  rw [h1, hlast, h2]

/-- A valid header for sector 40, another one for sector 67 that names sector 40 as the other copy, and
the latter with a wrong checksum. -/
def sector40 : Bytes := headerSector 40 67 34 38 4149692656
def sector67 : Bytes := headerSector 67 40 34 66 2891167727
def sector67Damaged : Bytes := headerSector 67 40 34 66 0

/-- C131 is false of the code: on this disk, whose second sector has no signature, the first call gives
the header in the last sector, and the second call on the same object gives another header (with
another last usable LBA), because the first call has remembered what the last sector records. -/
theorem C131_other_header : GPT.init (twoHeaderDisk sector40 sector67) 512 = .ok ⟨twoHeaderDisk sector40 sector67, 512⟩ ∧
    (⟨twoHeaderDisk sector40 sector67, 512⟩ : GPT).readHeaders 2 =
      [.ok ⟨1, 34, 66, zeros 16, 2, 0, 128, 0⟩, .ok ⟨2, 34, 38, zeros 16, 2, 0, 128, 0⟩] := by
  have hs : HeaderSectorOk sector40 40 ⟨2, 34, 38, zeros 16, 2, 0, 128, 0⟩ := by decide +kernel
  have ht : HeaderSectorOk sector67 67 ⟨1, 34, 66, zeros 16, 2, 0, 128, 0⟩ := by decide +kernel
  refine ⟨twoHeaderDisk_init hs.1 ht.1, ?_⟩
  rw [twoHeaderDisk_calls sector40 sector67 _ hs rfl ht.1 ht.2.1 (by decide +kernel)]
  have hlen := twoHeaderDisk_length hs.1 ht.1
  have hv : (twoHeaderDisk sector40 sector67).length < 2 ^ 63 := by rw [hlen]; decide
  have hc : ConsistentAt (twoHeaderDisk sector40 sector67) 512 (67 * 512) ⟨1, 34, 66, zeros 16, 2, 0, 128, 0⟩ :=
    consistent_of_sector _ sector67 67 _ (by omega) (by omega) (fun i j _ => twoHeaderDisk_67 hs.1 i j) ht
  have := (readHeaderAt_ok_iff ⟨twoHeaderDisk sector40 sector67, 512⟩ (Nat.le_refl 512) hv (67 * 512) 1 none
    (some (u64 (twoHeaderDisk sector40 sector67) (67 * 512 + 32))) _).2 ⟨hc, rfl, rfl⟩
  rw [this]

/-- C131 is false of the code also in this way: the first call finds no header (`ValueError`), and the
second call on the same object gives one. -/
theorem C131_found_later : GPT.init (twoHeaderDisk sector40 sector67Damaged) 512 = .ok ⟨twoHeaderDisk sector40 sector67Damaged, 512⟩ ∧
    ∃ e, (⟨twoHeaderDisk sector40 sector67Damaged, 512⟩ : GPT).readHeaders 2 = [.error e, .ok ⟨2, 34, 38, zeros 16, 2, 0, 128, 0⟩] := by
  have hs : HeaderSectorOk sector40 40 ⟨2, 34, 38, zeros 16, 2, 0, 128, 0⟩ := by decide +kernel
  have ht : sector67Damaged.length = 512 := by decide +kernel
  refine ⟨twoHeaderDisk_init hs.1 ht, ?_⟩
  rw [twoHeaderDisk_calls sector40 sector67Damaged _ hs rfl ht (by decide +kernel) (by decide +kernel)]
  have hlen := twoHeaderDisk_length hs.1 ht
  have hv : (twoHeaderDisk sector40 sector67Damaged).length < 2 ^ 63 := by rw [hlen]; decide
  cases h : ((⟨twoHeaderDisk sector40 sector67Damaged, 512⟩ : GPT).readHeaderAt (67 * 512) 1 none).1 with
  | error e => exact ⟨e, rfl⟩
  | ok hd =>
    have hc := (readHeaderAt_consistent ⟨twoHeaderDisk sector40 sector67Damaged, 512⟩ (Nat.le_refl 512) hv (67 * 512) 1 none hd h).headerCrc
    exfalso
    have a1 := twoHeaderDisk_67 (s := sector40) (t := sector67Damaged) hs.1 0 16
    have a2 := twoHeaderDisk_67 (s := sector40) (t := sector67Damaged) hs.1 20 92
    have a3 : u32 (twoHeaderDisk sector40 sector67Damaged) (67 * 512 + 12) = 92 := by
      unfold u32
      rw [Nat.add_assoc, twoHeaderDisk_67 hs.1 12 16]
      decide +kernel
    have a4 : u32 (twoHeaderDisk sector40 sector67Damaged) (67 * 512 + 16) = 0 := by
      unfold u32
      rw [Nat.add_assoc, twoHeaderDisk_67 hs.1 16 20]
      decide +kernel
    rw [Nat.add_zero] at a1
    dsimp only at hc
    rw [a3, a4, a1, a2] at hc
    revert hc
    decide +kernel

/-- C131 is not vacuous: a disk with a signature in the second sector. -/
example (n : Nat) : (⟨demoGptDisk (demoGptSector 34 65 3476498147), 512⟩ : GPT).readHeaders n =
    List.replicate n (.ok ⟨0, 34, 65, zeros 16, 2, 0, 128, 0⟩) := by
  have hc := demoGptDisk_consistent (demoGptSector 34 65 3476498147) ⟨0, 34, 65, zeros 16, 2, 0, 128, 0⟩ (by decide +kernel)
  have hv : (demoGptDisk (demoGptSector 34 65 3476498147)).length < 2 ^ 63 := by rw [demoGptDisk_length (by decide +kernel)]; decide
  rw [C131_again_partial _ 512 _ demoGpt_init hv (.inl hc.signed) n, readHeader_primary _ 512 _ demoGpt_init hv _ hc rfl]
/-- And a disk whose second sector has been wiped: the last sector names it as the other copy, and is
read every time. -/
example (n : Nat) : (⟨twoHeaderDisk (zeros 512) (headerSector 67 1 34 66 2968449579), 512⟩ : GPT).readHeaders n =
    List.replicate n (.ok ⟨1, 34, 66, zeros 16, 2, 0, 128, 0⟩) := by
  have hz : (zeros 512).length = 512 := zeros_length _
  have ht : HeaderSectorOk (headerSector 67 1 34 66 2968449579) 67 ⟨1, 34, 66, zeros 16, 2, 0, 128, 0⟩ := by decide +kernel
  have ho : u64 (headerSector 67 1 34 66 2968449579) 32 = 1 := by decide +kernel
  generalize headerSector 67 1 34 66 2968449579 = t at ht ho ⊢
  have hlen := twoHeaderDisk_length hz ht.1
  have hv : (twoHeaderDisk (zeros 512) t).length < 2 ^ 63 := by rw [hlen]; decide
  have hg := twoHeaderDisk_init hz ht.1
  have hun := twoHeaderDisk_unsigned (zeros 512) t
  have hc : ConsistentAt (twoHeaderDisk (zeros 512) t) 512 (67 * 512) ⟨1, 34, 66, zeros 16, 2, 0, 128, 0⟩ :=
    consistent_of_sector _ t 67 _ (by omega) (by omega) (fun i j _ => twoHeaderDisk_67 hz i j) ht
  have h1 : u64 (twoHeaderDisk (zeros 512) t) ((twoHeaderDisk (zeros 512) t).length - 512 + 32) = 1 := by
    rw [hlen]
    unfold u64
    rw [show 34816 - 512 + 32 = 67 * 512 + 32 from rfl, Nat.add_assoc, twoHeaderDisk_67 hz 32 (32 + 8)]
    exact ho
  have hc' : ConsistentAt (twoHeaderDisk (zeros 512) t) 512 (headerPlace (twoHeaderDisk (zeros 512) t) 512 1)
      ⟨1, 34, 66, zeros 16, 2, 0, 128, 0⟩ := by
    unfold headerPlace
    rw [hlen]
    exact hc
  have hr := ((C47_fallback _ 512 _ hg hv).1 _).2 (.inr (.inr ⟨rfl, fun ⟨_, h⟩ => hun h.signed, fun h => hun h.1, hc'⟩))
  rw [C131_again_partial _ 512 _ hg hv (.inr (.inr h1)) n, hr]
