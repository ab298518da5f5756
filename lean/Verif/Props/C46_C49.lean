/-
Properties C46-C49: partition tables (dfir_ntfs/PartitionTable.py).

Volumes are assumed to be smaller than 2^63 bytes, which is what file objects can address.
-/
import Verif.Proof.PartitionTable
namespace Verif.Props
open Verif.PartitionTable Verif.Spec.PartitionTable

/-- The three places where a header is looked for, by the location code that is reported. -/
def headerPlace (disk : Bytes) (ss : Nat) : Nat → Nat
  | 0 => ss
  | 1 => disk.length - ss
  | _ => u64 disk (ss + 32) * ss

theorem readHeader_cases (g : GPT) (hss : 512 ≤ g.sectorSize) (hvol : g.volume.length < 2 ^ 63) :
    (∀ h, (g.readHeader none).1 = .ok h → ConsistentAt g.volume g.sectorSize (headerPlace g.volume g.sectorSize h.location) h ∧
      (h.location = 0 ∨
       h.location = 2 ∧ ¬ ValidAt g.volume g.sectorSize (headerPlace g.volume g.sectorSize 0) ∧
         SignedAt g.volume g.sectorSize g.sectorSize ∨
       h.location = 1 ∧ ¬ ValidAt g.volume g.sectorSize (headerPlace g.volume g.sectorSize 0) ∧
         (SignedAt g.volume g.sectorSize g.sectorSize → ¬ ValidAt g.volume g.sectorSize (headerPlace g.volume g.sectorSize 2)))) ∧
    (∀ e, (g.readHeader none).1 = .error e → (e = .ValueError ∨ e = .OverflowError) ∧
      ¬ ValidAt g.volume g.sectorSize (headerPlace g.volume g.sectorSize 0) ∧
      ¬ ValidAt g.volume g.sectorSize (headerPlace g.volume g.sectorSize 1) ∧
      (SignedAt g.volume g.sectorSize g.sectorSize → ¬ ValidAt g.volume g.sectorSize (headerPlace g.volume g.sectorSize 2))) := by
  have hok : ∀ off loc b h b', g.readHeaderAt off loc b = (.ok h, b') →
      ConsistentAt g.volume g.sectorSize off h ∧ h.location = loc :=
    fun off loc b h b' hh => ⟨((readHeaderAt_ok_iff g hss hvol _ _ _ _ _).1 hh).1, ((readHeaderAt_ok_iff g hss hvol _ _ _ _ _).1 hh).2.1⟩
  have hbad : ∀ off loc b e b', g.readHeaderAt off loc b = (.error e, b') → ¬ ValidAt g.volume g.sectorSize off := by
    rintro off loc b e b' hh ⟨h, hc⟩
    have hc' : ConsistentAt g.volume g.sectorSize off { h with location := loc } := ⟨hc.1, hc.2, hc.3, hc.4, hc.5, hc.6, hc.7, hc.8, hc.9, hc.10, hc.11, hc.12, hc.13, hc.14, hc.15⟩
    have := (readHeaderAt_ok_iff g hss hvol off loc b (some (u64 g.volume (off + 32))) _).2 ⟨hc', rfl, rfl⟩
    rw [this] at hh; cases hh
  have hcaught : ∀ off loc b e b', g.readHeaderAt off loc b = (.error e, b') → caughtByHeader e = true := by
    intro off loc b e b' hh
    rcases readHeaderAt_error g _ _ _ _ _ hh with rfl | rfl <;> rfl
  unfold GPT.readHeader GPT.readHeaderInternal
  rw [if_pos rfl]
  have hb1 := readHeaderAt_backup g hss hvol g.sectorSize 0 none
  cases h1 : g.readHeaderAt g.sectorSize 0 none with
  | mk r1 b1 =>
    rw [h1] at hb1
    cases r1 with
    | ok h =>
      have := hok _ _ _ _ _ h1
      refine ⟨?_, (fun _ he => by cases he)⟩
      intro h' hh
      cases hh
      refine ⟨?_, .inl this.2⟩
      rw [this.2]
      exact this.1
    | error e =>
      have v1 := hbad _ _ _ _ _ h1
      dsimp only
      rw [if_pos (hcaught _ _ _ _ _ h1)]
      dsimp only at hb1
      have last : ∀ b, (SignedAt g.volume g.sectorSize g.sectorSize →
            ¬ ValidAt g.volume g.sectorSize (headerPlace g.volume g.sectorSize 2)) →
          (∀ h, (g.readHeaderAt (g.volume.length - g.sectorSize) 1 b).1 = .ok h →
            ConsistentAt g.volume g.sectorSize (headerPlace g.volume g.sectorSize h.location) h ∧
            (h.location = 0 ∨
             h.location = 2 ∧ ¬ ValidAt g.volume g.sectorSize (headerPlace g.volume g.sectorSize 0) ∧
               SignedAt g.volume g.sectorSize g.sectorSize ∨
             h.location = 1 ∧ ¬ ValidAt g.volume g.sectorSize (headerPlace g.volume g.sectorSize 0) ∧
               (SignedAt g.volume g.sectorSize g.sectorSize → ¬ ValidAt g.volume g.sectorSize (headerPlace g.volume g.sectorSize 2)))) ∧
          (∀ e, (g.readHeaderAt (g.volume.length - g.sectorSize) 1 b).1 = .error e → (e = .ValueError ∨ e = .OverflowError) ∧
            ¬ ValidAt g.volume g.sectorSize (headerPlace g.volume g.sectorSize 0) ∧
            ¬ ValidAt g.volume g.sectorSize (headerPlace g.volume g.sectorSize 1) ∧
            (SignedAt g.volume g.sectorSize g.sectorSize → ¬ ValidAt g.volume g.sectorSize (headerPlace g.volume g.sectorSize 2))) := by
        intro b hn
        cases h3 : g.readHeaderAt (g.volume.length - g.sectorSize) 1 b with
        | mk r3 b3 =>
          cases r3 with
          | ok h =>
            have := hok _ _ _ _ _ h3
            refine ⟨?_, (fun _ he => by cases he)⟩
            intro h' hh
            cases hh
            refine ⟨?_, .inr (.inr ⟨this.2, v1, hn⟩)⟩
            rw [this.2]
            exact this.1
          | error e =>
            refine ⟨(fun _ hh => by cases hh), ?_⟩
            intro e' hh
            cases hh
            exact ⟨readHeaderAt_error g _ _ _ _ _ h3, v1, hbad _ _ _ _ _ h3, hn⟩
      by_cases hs : SignedAt g.volume g.sectorSize g.sectorSize
      · rw [if_pos hs] at hb1
        subst hb1
        dsimp only
        rw [if_neg (by simp)]
        cases h2 : g.readHeaderAt (u64 g.volume (g.sectorSize + 32) * g.sectorSize) 2 (some (u64 g.volume (g.sectorSize + 32))) with
        | mk r2 b2 =>
          cases r2 with
          | ok h =>
            have := hok _ _ _ _ _ h2
            refine ⟨?_, (fun _ he => by cases he)⟩
            intro h' hh
            cases hh
            refine ⟨?_, .inr (.inl ⟨this.2, v1, hs⟩)⟩
            rw [this.2]
            exact this.1
          | error e =>
            dsimp only
            rw [if_pos (hcaught _ _ _ _ _ h2), if_neg (by simp)]
            exact last _ (fun _ => hbad _ _ _ _ _ h2)
      · rw [if_neg hs] at hb1
        subst hb1
        dsimp only
        rw [if_neg (by simp)]
        exact last _ (fun h => absurd h hs)

/-- C46: an accepted header is consistent at the place that the reported location stands for. -/
theorem C46_accepted_consistent_partial (disk : Bytes) (ss : Nat) (g : GPT) (hg : GPT.init disk ss = .ok g)
    (hvol : disk.length < 2 ^ 63) (h : GPTHeader) (hh : (g.readHeader none).1 = .ok h) :
    h.location ≤ 2 ∧ ConsistentAt disk ss (headerPlace disk ss h.location) h := by
  obtain ⟨rfl, rfl, h1, -⟩ := GPT.init_ok hg
  have := (readHeader_cases g h1 hvol).1 h hh
  exact ⟨by rcases this.2 with h | h | h <;> omega, this.1⟩

theorem uN_set {d : Bytes} {p i n : Nat} {x : UInt8} (h : p < i ∨ i + n ≤ p) :
    slice (d.set p x) i (i + n) = slice d i (i + n) := slice_set_of_outside h

theorem set_in_slice {d : Bytes} {p i j : Nat} {x : UInt8} (hi : i ≤ p) (hj : p < j) (hl : j ≤ d.length) :
    slice d i j = slice d i p ++ d[p]'(by omega) :: slice d (p + 1) j ∧
    slice (d.set p x) i j = slice d i p ++ x :: slice d (p + 1) j := by
  have e : ∀ d' : Bytes, (hp : p < d'.length) → j ≤ d'.length →
      slice d' i j = slice d' i p ++ d'[p] :: slice d' (p + 1) j := by
    intro d' hp hj'
    rw [← slice_append_adj d' hi (by omega : p ≤ j), ← slice_append_adj d' (by omega : p ≤ p + 1) (by omega : p + 1 ≤ j)]
    have : slice d' p (p + 1) = [d'[p]] := by
      unfold slice
      rw [show p + 1 - p = 1 by omega, List.drop_eq_getElem_cons hp]
      rfl
    rw [this]; rfl
  refine ⟨e d (by omega) hl, ?_⟩
  rw [e (d.set p x) (by simp; omega) (by simpa using hl), slice_set_of_outside (.inr (by omega)),
    slice_set_of_outside (.inl (by omega))]
  simp

/-- C46: every change of one byte in an accepted header (outside its size field) makes the header
invalid. -/
theorem C46_header_damage_detected (disk : Bytes) (ss off : Nat) (h : GPTHeader) (hc : ConsistentAt disk ss off h)
    (p : Nat) (x : UInt8) (hp : off ≤ p) (hp2 : p < off + u32 disk (off + 12)) (hp3 : p < off + 12 ∨ off + 16 ≤ p)
    (hx : disk[p]? ≠ some x) : ¬ ValidAt (disk.set p x) ss off := by
  rintro ⟨h', hc'⟩
  have hin := hc.signed.1
  have hmax := hc.sizeMax
  have hmin := hc.sizeMin
  have hsz : u32 (disk.set p x) (off + 12) = u32 disk (off + 12) := by
    unfold u32; rw [uN_set (by omega)]
  have hplen : p < disk.length := by omega
  have hne : disk[p] ≠ x := by
    intro he; apply hx; rw [List.getElem?_eq_getElem hplen, he]
  have k := hc.headerCrc
  have k' := hc'.headerCrc
  rw [hsz] at k'
  by_cases hcrcf : off + 16 ≤ p ∧ p < off + 20
  · -- the stored checksum itself was changed
    rw [slice_set_of_outside (.inr (by omega)), slice_set_of_outside (.inl (by omega)), k] at k'
    unfold u32 at k'
    obtain ⟨e1, e2⟩ := set_in_slice (d := disk) (p := p) (i := off + 16) (j := off + 16 + 4) (x := x) (by omega) (by omega) (by omega)
    have := leNat_inj (by rw [e1, e2]; simp) k'
    rw [e1, e2] at this
    have := List.append_cancel_left this
    simp only [List.cons.injEq] at this
    exact hne this.1
  · have hst : u32 (disk.set p x) (off + 16) = u32 disk (off + 16) := by
      unfold u32; rw [uN_set (by omega)]
    rw [hst, ← k] at k'
    by_cases hlow : p < off + 16
    · obtain ⟨e1, e2⟩ := set_in_slice (d := disk) (p := p) (i := off) (j := off + 16) (x := x) (by omega) (by omega) (by omega)
      rw [slice_set_of_outside (i := off + 20) (.inl (by omega)), e1, e2] at k'
      simp only [List.append_assoc, List.cons_append] at k'
      exact crc32_detects_byte _ _ hne.symm k'
    · obtain ⟨e1, e2⟩ := set_in_slice (d := disk) (p := p) (i := off + 20) (j := off + u32 disk (off + 12)) (x := x) (by omega) (by omega) (by omega)
      rw [slice_set_of_outside (i := off) (.inr (by omega)), e1, e2, ← List.append_assoc, ← List.append_assoc] at k'
      exact crc32_detects_byte _ _ hne.symm k'

/-- C46: every change of one byte in the partition array of an accepted header makes the header
invalid (the array must not overlap the header itself). -/
theorem C46_array_damage_detected (disk : Bytes) (ss off : Nat) (h : GPTHeader) (hc : ConsistentAt disk ss off h)
    (p : Nat) (x : UInt8) (hp : h.partitionEntryLba * ss ≤ p)
    (hp2 : p < h.partitionEntryLba * ss + h.numberOfPartitionEntries * h.sizeOfPartitionEntry)
    (hp3 : p < off ∨ off + 92 ≤ p) (hx : disk[p]? ≠ some x) : ¬ ValidAt (disk.set p x) ss off := by
  rintro ⟨h', hc'⟩
  have hin := hc.arrayInside
  have hplen : p < disk.length := by omega
  have hne : disk[p] ≠ x := by
    intro he; apply hx; rw [List.getElem?_eq_getElem hplen, he]
  have e72 : u64 (disk.set p x) (off + 72) = u64 disk (off + 72) := by unfold u64; rw [uN_set (by omega)]
  have e80 : u32 (disk.set p x) (off + 80) = u32 disk (off + 80) := by unfold u32; rw [uN_set (by omega)]
  have e84 : u32 (disk.set p x) (off + 84) = u32 disk (off + 84) := by unfold u32; rw [uN_set (by omega)]
  have e88 : u32 (disk.set p x) (off + 88) = u32 disk (off + 88) := by unfold u32; rw [uN_set (by omega)]
  have k := hc.arrayCrc
  have k' := hc'.arrayCrc
  rw [hc'.arrayLba.1, hc'.entryNumber, hc'.entrySize.1, e72, e80, e84, k'.1, e88, ← hc.arrayLba.1, ← hc.entryNumber,
    ← hc.entrySize.1, ← k.1, ← k.2] at k'
  obtain ⟨e1, e2⟩ := set_in_slice (d := disk) (p := p) (x := x) hp hp2 hin
  have k' := k'.2
  rw [e1, e2] at k'
  exact crc32_detects_byte _ _ hne.symm k'

/-- A disk of 34304 bytes with the given second sector, for examples. -/
def demoGptDisk (sector : Bytes) : Bytes := zeros 512 ++ sector ++ zeros 33280

/-- What makes a sector for `demoGptDisk` a consistent header without partition entries. -/
def DemoSectorOk (s : Bytes) (h : GPTHeader) : Prop :=
  s.length = 512 ∧ slice s 0 8 = gptSignature ∧ u32 s 8 ≠ 0 ∧ u32 s 12 = 92 ∧
  crc32 (slice s 0 16 ++ zeros 4 ++ slice s 20 92) = u32 s 16 ∧ u64 s 24 = 1 ∧ u64 s 32 = 66 ∧ u64 s 72 = 2 ∧ u32 s 80 = 0 ∧
  u32 s 84 = 128 ∧ u32 s 88 = 0 ∧ 33 < u64 s 40 ∧ h = ⟨0, u64 s 40, u64 s 48, slice s 56 72, 2, 0, 128, 0⟩

instance (s : Bytes) (h : GPTHeader) : Decidable (DemoSectorOk s h) := by unfold DemoSectorOk; infer_instance

theorem demoGptDisk_length {s : Bytes} (h : s.length = 512) : (demoGptDisk s).length = 34304 := by
  simp only [demoGptDisk, List.length_append, h, zeros_length]

theorem demoGptDisk_consistent (s : Bytes) (h : GPTHeader) (hok : DemoSectorOk s h) :
    ConsistentAt (demoGptDisk s) 512 512 h := by
  obtain ⟨hlen, hsig, k8, k12, kcrc, k24, k32, k72, k80, k84, k88, k40, rfl⟩ := hok
  have hdl := demoGptDisk_length hlen
  have hs : ∀ i j, j ≤ 512 → slice (demoGptDisk s) (512 + i) (512 + j) = slice s i j := by
    intro i j hj
    unfold demoGptDisk
    have hz : (zeros 512).length = 512 := zeros_length _
    rw [List.append_assoc, slice_append_right _ _ _ _ (by omega), slice_append_left _ _ _ _ (by omega), hz,
      Nat.add_sub_cancel_left, Nat.add_sub_cancel_left]
  have w32 : ∀ i, i + 4 ≤ 512 → u32 (demoGptDisk s) (512 + i) = u32 s i :=
    fun i hi => by unfold u32; rw [Nat.add_assoc, hs i (i + 4) hi]
  have w64 : ∀ i, i + 8 ≤ 512 → u64 (demoGptDisk s) (512 + i) = u64 s i :=
    fun i hi => by unfold u64; rw [Nat.add_assoc, hs i (i + 8) hi]
  have a0 := hs 0 8 (by omega)
  have a1 := hs 0 16 (by omega)
  have a2 := hs 20 92 (by omega)
  rw [Nat.add_zero] at a0 a1
  refine ⟨⟨by omega, by rw [a0, hsig]⟩, by rw [w32 8 (by omega)]; exact k8, by rw [w32 12 (by omega), k12]; decide,
    by rw [w32 12 (by omega), k12]; decide, by rw [w32 12 (by omega), k12, w32 16 (by omega), a1, a2, kcrc],
    by rw [w64 24 (by omega), k24], by rw [w64 24 (by omega), w64 32 (by omega), k24, k32]; decide,
    ⟨(w64 40 (by omega)).symm, ?_⟩, (w64 48 (by omega)).symm, (hs 56 72 (by omega)).symm,
    ⟨by rw [w64 72 (by omega), k72], ?_, ?_⟩, by rw [w32 80 (by omega), k80],
    ⟨by rw [w32 84 (by omega), k84], ?_, ?_⟩, ?_, ⟨by rw [w32 88 (by omega), k88], ?_⟩⟩
  · show 16384 + 2 * 512 < (u64 s 40 + 1) * 512
    omega
  · show 1 < 2
    decide
  · show 2 * 512 + 512 < _
    omega
  · show 0 < 128
    decide
  · show 128 ∣ 128
    decide
  · show 2 * 512 + 0 * 128 ≤ _
    omega
  · show crc32 (slice _ (2 * 512) (2 * 512 + 0 * 128)) = 0
    rw [slice_eq_nil_of_le (by omega)]
    decide +kernel

/-- A header sector with the given usable range and checksum. -/
def demoGptSector (first last crc : Nat) : Bytes :=
  [0x45, 0x46, 0x49, 0x20, 0x50, 0x41, 0x52, 0x54, 0, 0, 1, 0, 92, 0, 0, 0] ++ natLE 4 crc ++ natLE 4 0 ++ natLE 8 1 ++
    natLE 8 66 ++ natLE 8 first ++ natLE 8 last ++ zeros 16 ++ natLE 8 2 ++ natLE 4 0 ++ natLE 4 128 ++ natLE 4 0 ++ zeros 420

theorem readHeader_primary (disk : Bytes) (ss : Nat) (g : GPT) (hg : GPT.init disk ss = .ok g) (hvol : disk.length < 2 ^ 63)
    (h : GPTHeader) (hc : ConsistentAt disk ss ss h) (hl : h.location = 0) : (g.readHeader none).1 = .ok h := by
  obtain ⟨rfl, rfl, h1, -⟩ := GPT.init_ok hg
  have := (readHeaderAt_ok_iff g h1 hvol g.sectorSize 0 none (some (u64 g.volume (g.sectorSize + 32))) h).2 ⟨hc, hl, rfl⟩
  unfold GPT.readHeader GPT.readHeaderInternal
  rw [if_pos rfl, this]

/-- C46 is not vacuous: this disk has a consistent header, which is accepted. -/
theorem demoGpt_init : GPT.init (demoGptDisk (demoGptSector 34 65 3476498147)) 512 = .ok ⟨demoGptDisk (demoGptSector 34 65 3476498147), 512⟩ := by
  unfold GPT.init
  rw [if_neg (by decide), demoGptDisk_length (by decide +kernel), if_neg (by decide)]
example : ConsistentAt (demoGptDisk (demoGptSector 34 65 3476498147)) 512 512 ⟨0, 34, 65, zeros 16, 2, 0, 128, 0⟩ :=
  demoGptDisk_consistent _ _ (by decide +kernel)
example : ((⟨demoGptDisk (demoGptSector 34 65 3476498147), 512⟩ : GPT).readHeader none).1 =
    .ok ⟨0, 34, 65, zeros 16, 2, 0, 128, 0⟩ :=
  readHeader_primary _ 512 _ demoGpt_init (by rw [demoGptDisk_length (by decide +kernel)]; decide) _
    (demoGptDisk_consistent _ _ (by decide +kernel)) rfl

/-- C46 is false of the code as far as the usable range is concerned: a header whose last usable LBA
(5) precedes the first one (34) is accepted. -/
theorem C46_unordered_accepted : ∃ (disk : Bytes) (g : GPT) (h : GPTHeader), GPT.init disk 512 = .ok g ∧
    (g.readHeader none).1 = .ok h ∧ h.lastUsableLba < h.firstUsableLba := by
  have hi : GPT.init (demoGptDisk (demoGptSector 34 5 3979868261)) 512 = .ok ⟨demoGptDisk (demoGptSector 34 5 3979868261), 512⟩ := by
    unfold GPT.init
    rw [if_neg (by decide), demoGptDisk_length (by decide +kernel), if_neg (by decide)]
  exact ⟨_, _, ⟨0, 34, 5, zeros 16, 2, 0, 128, 0⟩, hi,
    readHeader_primary _ 512 _ hi (by rw [demoGptDisk_length (by decide +kernel)]; decide) _
      (demoGptDisk_consistent _ _ (by decide +kernel)) rfl, by decide⟩

/-- Two consistent headers at the same place describe the same thing. -/
theorem ConsistentAt_unique {disk : Bytes} {ss off : Nat} {h h' : GPTHeader} (hc : ConsistentAt disk ss off h)
    (hc' : ConsistentAt disk ss off h') (hl : h.location = h'.location) : h = h' := by
  obtain ⟨l, a, b, c, d, e, f, k⟩ := h
  obtain ⟨l', a', b', c', d', e', f', k'⟩ := h'
  have e1 := hc.firstUsable.1; have e1' := hc'.firstUsable.1
  have e2 := hc.lastUsable; have e2' := hc'.lastUsable
  have e3 := hc.guid; have e3' := hc'.guid
  have e4 := hc.arrayLba.1; have e4' := hc'.arrayLba.1
  have e5 := hc.entryNumber; have e5' := hc'.entryNumber
  have e6 := hc.entrySize.1; have e6' := hc'.entrySize.1
  have e7 := hc.arrayCrc.1; have e7' := hc'.arrayCrc.1
  dsimp only at *
  simp only [GPTHeader.mk.injEq]
  exact ⟨hl, e1.trans e1'.symm, e2.trans e2'.symm, e3.trans e3'.symm, e4.trans e4'.symm, e5.trans e5'.symm, e6.trans e6'.symm,
    e7.trans e7'.symm⟩

/-- C47: the result is the header at the first of these places that has a valid one: the second
sector; the place recorded in the second sector (if that is signed at all); the last sector.  (The
location codes are 0, 2 and 1.)  If there is none, `ValueError` or `OverflowError` is raised. -/
theorem C47_fallback (disk : Bytes) (ss : Nat) (g : GPT) (hg : GPT.init disk ss = .ok g) (hvol : disk.length < 2 ^ 63) :
    (∀ h, (g.readHeader none).1 = .ok h ↔
      (h.location = 0 ∧ ConsistentAt disk ss (headerPlace disk ss 0) h) ∨
      (h.location = 2 ∧ ¬ ValidAt disk ss (headerPlace disk ss 0) ∧ SignedAt disk ss (headerPlace disk ss 0) ∧
        ConsistentAt disk ss (headerPlace disk ss 2) h) ∨
      (h.location = 1 ∧ ¬ ValidAt disk ss (headerPlace disk ss 0) ∧
        ¬ (SignedAt disk ss (headerPlace disk ss 0) ∧ ValidAt disk ss (headerPlace disk ss 2)) ∧
        ConsistentAt disk ss (headerPlace disk ss 1) h)) ∧
    (∀ e, (g.readHeader none).1 = .error e → e = .ValueError ∨ e = .OverflowError) := by
  obtain ⟨rfl, rfl, h1, -⟩ := GPT.init_ok hg
  have key := readHeader_cases g h1 hvol
  refine ⟨fun h => ⟨fun hh => ?_, fun hh => ?_⟩, fun e he => (key.2 e he).1⟩
  · obtain ⟨k1, k2⟩ := key.1 h hh
    rcases k2 with k2 | ⟨k2, k3, k4⟩ | ⟨k2, k3, k4⟩
    · exact .inl ⟨k2, by rwa [k2] at k1⟩
    · exact .inr (.inl ⟨k2, k3, k4, by rwa [k2] at k1⟩)
    · exact .inr (.inr ⟨k2, k3, fun hc => k4 hc.1 hc.2, by rwa [k2] at k1⟩)
  · cases hr : (g.readHeader none).1 with
    | error e =>
      obtain ⟨-, n0, n1, n2⟩ := key.2 e hr
      exfalso
      rcases hh with ⟨-, hc⟩ | ⟨-, -, hs, hc⟩ | ⟨-, -, -, hc⟩
      · exact n0 ⟨_, hc⟩
      · exact n2 hs ⟨_, hc⟩
      · exact n1 ⟨_, hc⟩
    | ok h' =>
      obtain ⟨k1, k2⟩ := key.1 h' hr
      have hloc : h'.location = h.location := by
        rcases hh with ⟨hl, hc⟩ | ⟨hl, hn, hs, hc⟩ | ⟨hl, hn, hs, hc⟩ <;> rcases k2 with k2 | ⟨k2, k3, k4⟩ | ⟨k2, k3, k4⟩
        · rw [k2, hl]
        · exact absurd ⟨_, hc⟩ k3
        · exact absurd ⟨_, hc⟩ k3
        · exact absurd ⟨h', by rwa [k2] at k1⟩ hn
        · rw [k2, hl]
        · exact absurd ⟨_, hc⟩ (k4 hs)
        · exact absurd ⟨h', by rwa [k2] at k1⟩ hn
        · exact absurd ⟨k4, h', by rwa [k2] at k1⟩ hs
        · rw [k2, hl]
      have hc : ConsistentAt g.volume g.sectorSize (headerPlace g.volume g.sectorSize h'.location) h := by
        rw [hloc]
        rcases hh with ⟨hl, hc⟩ | ⟨hl, hn, hs, hc⟩ | ⟨hl, hn, hs, hc⟩ <;> rw [hl] <;> exact hc
      rw [ConsistentAt_unique k1 hc hloc]

/-- C47: in particular, when the primary header is damaged but a backup in the last sector is the only
valid one, that backup is used. -/
theorem C47_last_sector_backup (disk : Bytes) (ss : Nat) (g : GPT) (hg : GPT.init disk ss = .ok g) (hvol : disk.length < 2 ^ 63)
    (h : GPTHeader) (hl : h.location = 1) (hc : ConsistentAt disk ss (disk.length - ss) h) (hbad : ¬ ValidAt disk ss ss)
    (hrec : ¬ ValidAt disk ss (u64 disk (ss + 32) * ss)) : (g.readHeader none).1 = .ok h :=
  ((C47_fallback disk ss g hg hvol).1 h).2 (.inr (.inr ⟨hl, hbad, fun hh => hrec hh.2, hc⟩))

/-- C47 is not vacuous: without any signature nothing is found; with a valid primary it is used. -/
example : ¬ ValidAt (demoGptDisk (zeros 512)) 512 512 := by
  rintro ⟨h, hc⟩
  have := hc.signed.2
  revert this
  decide +kernel

theorem filterMap_congr' {α β : Type} {f g : α → Option β} : ∀ {l : List α}, (∀ x ∈ l, f x = g x) → l.filterMap f = l.filterMap g
  | [], _ => rfl
  | a :: l, h => by
    rw [List.filterMap_cons, List.filterMap_cons, h a (List.mem_cons_self ..), filterMap_congr' fun x hx => h x (List.mem_cons_of_mem _ hx)]

/-- C48: reading the partition array succeeds exactly when the array is where it should be and has
the given checksum, and then lists exactly the entries with a non-zero type, in table order. -/
theorem C48_partitions_exact (disk : Bytes) (ss : Nat) (g : GPT) (hg : GPT.init disk ss = .ok g) (hvol : disk.length < 2 ^ 63)
    (lba number size crc : Nat) (ps : List GPTPartition) :
    g.readPartitions lba number size crc = .ok ps ↔
      (number = 0 ∧ ps = []) ∨
      (number ≠ 0 ∧ 1 < lba ∧ lba * ss + ss < disk.length ∧ 0 < size ∧ 128 ∣ size ∧ lba * ss + number * size ≤ disk.length ∧
        crc32 (slice disk (lba * ss) (lba * ss + number * size)) = crc ∧
        ps = (List.range number).filterMap fun i => partitionAt disk (lba * ss + i * size)) := by
  obtain ⟨rfl, rfl, h1, -⟩ := GPT.init_ok hg
  obtain ⟨disk, ss⟩ := g
  dsimp only at *
  have hloop : 128 ≤ size → lba * ss + number * size ≤ disk.length →
      partitionsLoop (slice disk (lba * ss) (lba * ss + number * size)) size number 0 [] =
      .ok ((List.range number).filterMap fun i => partitionAt disk (lba * ss + i * size)) := by
    intro hs hl
    rw [partitionsLoop_eq _ _ hs _ _ _ (by rw [slice_length, Nat.zero_add]; omega), List.nil_append, List.range_eq_range']
    congr 1
    apply filterMap_congr'
    intro i hi
    rw [List.mem_range'] at hi
    obtain ⟨k, hk, rfl⟩ := hi
    apply partitionAt_slice
    have : (0 + 1 * k) * size + 1 * size ≤ number * size := by
      rw [← Nat.add_mul]; exact Nat.mul_le_mul_right _ (by omega)
    omega
  unfold GPT.readPartitions
  dsimp only
  by_cases hn : number = 0
  · rw [if_pos hn]
    constructor
    · intro h; cases h; exact .inl ⟨hn, rfl⟩
    · rintro (⟨-, rfl⟩ | ⟨h, -⟩)
      · rfl
      · exact absurd hn h
  · rw [if_neg hn]
    constructor
    · intro h
      right
      obtain ⟨c1, h⟩ := of_ite_error h
      obtain ⟨c2, h⟩ := of_ite_error h
      split at h
      · cases h
      rename_i buf hb
      obtain ⟨rfl, -, -⟩ := of_seekRead hb
      obtain ⟨c3, h⟩ := of_ite_error h
      obtain ⟨c4, h⟩ := of_ite_error h
      have c3 := Decidable.of_not_not c3
      rw [slice_length] at c3
      have c1 := not_or.1 c1
      rw [hloop (by omega) (by omega)] at h
      cases h
      exact ⟨hn, by omega, by omega, by omega, by omega, by omega, Decidable.of_not_not c4, rfl⟩
    · rintro (⟨h, -⟩ | ⟨-, k1, k2, k3, k4, k5, k6, rfl⟩)
      · exact absurd h hn
      · rw [if_neg (not_or.2 ⟨by omega, by omega⟩), if_neg (by omega), seekRead_ok (by omega) (by omega)]
        dsimp only
        rw [if_neg (by rw [slice_length]; omega), if_neg (fun h => h k6), hloop (by omega) k5]

/-- C48: the partitions of an accepted header can always be listed, and are those in its array. -/
theorem C48_accepted_header_lists (disk : Bytes) (ss : Nat) (g : GPT) (hg : GPT.init disk ss = .ok g) (hvol : disk.length < 2 ^ 63)
    (h : GPTHeader) (hh : (g.readHeader none).1 = .ok h) :
    g.readPartitions h.partitionEntryLba h.numberOfPartitionEntries h.sizeOfPartitionEntry h.partitionEntryCrc32 =
      .ok ((List.range h.numberOfPartitionEntries).filterMap fun i =>
        partitionAt disk (h.partitionEntryLba * ss + i * h.sizeOfPartitionEntry)) := by
  obtain ⟨-, hc⟩ := C46_accepted_consistent_partial disk ss g hg hvol h hh
  rw [C48_partitions_exact disk ss g hg hvol]
  by_cases hn : h.numberOfPartitionEntries = 0
  · exact .inl ⟨hn, by simp [hn]⟩
  · exact .inr ⟨hn, hc.arrayLba.2.1, hc.arrayLba.2.2, hc.entrySize.2.1, hc.entrySize.2.2, hc.arrayInside, hc.arrayCrc.2, rfl⟩

/-- C48 is not vacuous: a used entry named `A` and an unused one. -/
example : partitionsLoop ([1] ++ zeros 15 ++ [2] ++ zeros 15 ++ natLE 8 34 ++ natLE 8 40 ++ natLE 8 0 ++ [0x41, 0] ++ zeros 70 ++ zeros 128)
    128 2 0 [] = .ok [⟨[1] ++ zeros 15, [2] ++ zeros 15, 34, 40, 0, [0x41]⟩] := by decide +kernel

theorem MBR.init_ok {volume : Bytes} {ss : Nat} {m : MBR} (h : MBR.init volume ss = .ok m) :
    m.volume = volume ∧ m.sectorSize = ss ∧ 512 ≤ ss ∧ 2 * ss ≤ volume.length := by
  unfold MBR.init at h
  obtain ⟨h1, h⟩ := of_ite_error h
  obtain ⟨h2, h⟩ := of_ite_error h
  cases h
  exact ⟨rfl, rfl, by omega, by omega⟩

/-- C49: the primary partitions are exactly the slots with a non-zero type, in order. -/
theorem C49_primary_partitions (disk : Bytes) (ss : Nat) (m : MBR) (hm : MBR.init disk ss = .ok m) :
    m.readPartitions = .ok ([446, 462, 478, 494].filterMap (slotAt disk)) := by
  obtain ⟨rfl, rfl, h1, h2⟩ := MBR.init_ok hm
  unfold MBR.readPartitions
  dsimp only
  rw [if_neg (by rw [slice_length]; omega)]
  have hloop : ∀ (b : Bytes) n i r, mbrLoop b n i r = r ++ (List.range' i n).filterMap fun k =>
      decodeMbrSlot (slice b (446 + k * 16) (446 + k * 16 + 16)) := by
    intro b n
    induction n with
    | zero => intro i r; simp [mbrLoop]
    | succ n ih =>
      intro i r
      unfold mbrLoop
      rw [List.range'_succ, List.filterMap_cons]
      cases decodeMbrSlot (slice b (446 + i * 16) (446 + i * 16 + 16)) with
      | none => exact ih _ _
      | some p => dsimp only; rw [ih]; simp
  rw [hloop, List.nil_append]
  have e := fun o (ho : 0 + (o + 16) ≤ 512) => slotAt_slice m.volume 0 512 o ho
  have e0 := e 446 (by omega)
  have e1 := e 462 (by omega)
  have e2 := e 478 (by omega)
  have e3 := e 494 (by omega)
  rw [Nat.zero_add] at e0 e1 e2 e3
  rw [show List.range' 0 4 = [0, 1, 2, 3] from rfl]
  simp only [List.filterMap_cons, List.filterMap_nil, Nat.zero_mul, Nat.one_mul, Nat.add_zero, Nat.reduceMul, Nat.reduceAdd, e0, e1, e2, e3]

/-- The starts of the extended partitions, in the order of the table. -/
def extendedStarts (disk : Bytes) : List Nat :=
  (([446, 462, 478, 494].filterMap (slotAt disk)).filter fun p => p.osType ∈ [0x5, 0xF, 0x85]).map (·.startingLba)

/-- C49: the walk ends for every disk: a number of steps for each chain that depends only on the size
of the disk suffices (a sector is never visited twice). -/
theorem C49_walk_terminates (disk : Bytes) (ss : Nat) (m : MBR) (hm : MBR.init disk ss = .ok m) (fuel : Nat)
    (hfuel : disk.length + 2 ≤ fuel) : ∃ rs, m.readEbrPartitions fuel = .ok (some rs) := by
  unfold MBR.readEbrPartitions
  rw [C49_primary_partitions disk ss m hm]
  obtain ⟨rfl, rfl, h1, h2⟩ := MBR.init_ok hm
  dsimp only
  have chainNodup : ∀ first seen lba lbas, Chain m.volume m.sectorSize first seen lba lbas → seen.Nodup →
      (lbas.reverse ++ seen).Nodup := by
    intro first seen lba lbas hc hn
    induction hc with
    | again => simpa using hn
    | last h => simpa using ⟨h, hn⟩
    | next h _ _ ih =>
      have := ih (List.nodup_cons.2 ⟨h, hn⟩)
      simpa using this
  have hl : ∀ parts results track, track.Nodup → ∃ rs, m.ebrLoop fuel parts results track = some rs := by
    intro parts
    induction parts with
    | nil => intro results track _; exact ⟨_, rfl⟩
    | cons p ps ih =>
      intro results track hn
      unfold MBR.ebrLoop
      by_cases h1 : p.osType ∉ supportedExtendedPartitionTypes
      · rw [if_pos h1]; exact ih _ _ hn
      rw [if_neg h1]
      by_cases h2 : p.startingLba = 0
      · rw [if_pos h2]; exact ⟨_, rfl⟩
      rw [if_neg h2]
      obtain ⟨⟨rs, tr⟩, hr⟩ := ebrChain_terminates m (by omega) p.startingLba fuel 0 results track hn (by omega)
      rw [hr]
      dsimp only
      obtain ⟨lbas, hc, -, rfl⟩ := ebrChain_sound _ _ _ _ _ _ _ _ hr
      exact ih _ _ (chainNodup _ _ _ _ hc hn)
  obtain ⟨rs, hr⟩ := hl ([446, 462, 478, 494].filterMap (slotAt m.volume)) [] [] List.nodup_nil
  exact ⟨rs, by rw [hr]⟩

/-- C49: the logical partitions listed are exactly those of the EBRs on the chains of the extended
partitions, in chain order. -/
theorem C49_logical_partitions_partial (disk : Bytes) (ss : Nat) (m : MBR) (hm : MBR.init disk ss = .ok m) (fuel : Nat)
    (rs : List EBRPartition) (h : m.readEbrPartitions fuel = .ok (some rs)) (hz : 0 ∉ extendedStarts disk) :
    ∃ lbas, Chains disk ss [] (extendedStarts disk) lbas ∧ lbas.Nodup ∧ rs = lbas.filterMap (logicalAt disk ss) := by
  unfold MBR.readEbrPartitions at h
  rw [C49_primary_partitions disk ss m hm] at h
  obtain ⟨rfl, rfl, h1, h2⟩ := MBR.init_ok hm
  dsimp only at h
  simp only [Except.ok.injEq] at h
  have chainNodup : ∀ first seen lba lbas, Chain m.volume m.sectorSize first seen lba lbas → seen.Nodup →
      (lbas.reverse ++ seen).Nodup := by
    intro first seen lba lbas hc hn
    induction hc with
    | again => simpa using hn
    | last h => simpa using ⟨h, hn⟩
    | next h _ _ ih =>
      have := ih (List.nodup_cons.2 ⟨h, hn⟩)
      simpa using this
  unfold extendedStarts at hz ⊢
  generalize [446, 462, 478, 494].filterMap (slotAt m.volume) = parts at *
  have key : ∀ (parts : List MBRPartition) (results : List EBRPartition) (track : List Nat),
      track.Nodup → 0 ∉ (parts.filter fun p => p.osType ∈ [0x5, 0xF, 0x85]).map (·.startingLba) →
      m.ebrLoop fuel parts results track = some rs →
      ∃ lbas, Chains m.volume m.sectorSize track ((parts.filter fun p => p.osType ∈ [0x5, 0xF, 0x85]).map (·.startingLba)) lbas ∧
        (lbas.reverse ++ track).Nodup ∧ rs = results ++ lbas.filterMap (logicalAt m.volume m.sectorSize) := by
    intro parts
    induction parts with
    | nil =>
      intro results track hn _ hr
      cases hr
      exact ⟨[], .nil, by simpa using hn, by simp⟩
    | cons p ps ih =>
      intro results track hn hz hr
      unfold MBR.ebrLoop at hr
      by_cases he : p.osType ∈ supportedExtendedPartitionTypes
      · rw [if_neg (fun h => h he)] at hr
        rw [List.filter_cons_of_pos (by simpa [supportedExtendedPartitionTypes] using he), List.map_cons] at hz ⊢
        rw [List.mem_cons, not_or] at hz
        rw [if_neg (fun h => hz.1 h.symm)] at hr
        cases hc : m.ebrChain p.startingLba fuel 0 results track with
        | none => rw [hc] at hr; cases hr
        | some rt =>
          obtain ⟨r1, t1⟩ := rt
          rw [hc] at hr
          dsimp only at hr
          obtain ⟨lbas, hch, hr1, ht1⟩ := ebrChain_sound _ _ _ _ _ _ _ _ hc
          subst ht1
          obtain ⟨lbas', hch', hnd, hrs⟩ := ih _ _ (chainNodup _ _ _ _ hch hn) hz.2 hr
          refine ⟨lbas ++ lbas', .cons hch hch', ?_, ?_⟩
          · rw [List.reverse_append, List.append_assoc]; exact hnd
          · rw [hrs, hr1, List.append_assoc, List.filterMap_append]
      · rw [if_pos he] at hr
        rw [List.filter_cons_of_neg (by simpa [supportedExtendedPartitionTypes] using he)] at hz ⊢
        exact ih _ _ hn hz hr
  obtain ⟨lbas, hc, hn, hr⟩ := key parts [] [] List.nodup_nil hz h
  refine ⟨lbas, hc, ?_, by simpa using hr⟩
  rw [List.append_nil] at hn
  exact ((List.reverse_perm lbas).nodup_iff.1 hn)

/-- A sector with two slots of a partition table and the boot signature, for examples. -/
def demoTable (type₁ start₁ size₁ type₂ start₂ : Nat) : Bytes :=
  zeros 446 ++ ([0, 0, 0, 0] ++ natLE 4 type₁ ++ natLE 4 start₁ ++ natLE 4 size₁) ++
    ([0, 0, 0, 0] ++ natLE 4 type₂ ++ natLE 4 start₂ ++ natLE 4 1) ++ zeros 32 ++ [0x55, 0xAA]
/-- An extended partition with two logical ones; the second EBR points back to the first one. -/
def demoMbrDisk : Bytes := demoTable 7 9 1 5 1 ++ demoTable 6 3 2 5 1 ++ demoTable 0x83 4 5 5 0
example : MBR.init demoMbrDisk 512 = .ok ⟨demoMbrDisk, 512⟩ ∧ extendedStarts demoMbrDisk = [1] ∧
    (⟨demoMbrDisk, 512⟩ : MBR).readEbrPartitions 10 = .ok (some [⟨0, 6, 4, 2⟩, ⟨0, 0x83, 6, 5⟩]) := by decide +kernel
/-- The same with a chain that loops. -/
example : (⟨demoTable 7 9 1 5 1 ++ demoTable 6 3 2 5 1 ++ demoTable 0x83 4 5 5 1, 512⟩ : MBR).readEbrPartitions 10 =
    .ok (some [⟨0, 6, 4, 2⟩, ⟨0, 0x83, 6, 5⟩]) := by decide +kernel

/-- The hypothesis on the starts in C49 is needed (and is a defect of the code): an extended partition
with the start 0 makes the logical partitions found before it disappear. -/
theorem C49_zero_start_drops : ∃ (disk : Bytes) (m : MBR), MBR.init disk 512 = .ok m ∧
    extendedStarts disk = [1, 0] ∧ logicalAt disk 512 1 ≠ none ∧ m.readEbrPartitions 10 = .ok (some []) :=
  ⟨demoTable 5 1 1 5 0 ++ demoTable 6 3 2 5 0, ⟨demoTable 5 1 1 5 0 ++ demoTable 6 3 2 5 0, 512⟩, by decide +kernel⟩

end Verif.Props
