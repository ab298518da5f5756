/-
C66: the checksum of a boot region does not protect the sector size.  C67: the backup boot region.
-/
import Verif.Props.C65_C66
namespace Verif.Props.ExFAT
open Verif.ExFAT Verif.Spec.ExFAT

/-- The first sector of a boot region of a volume of 4096 sectors, with a byte for the sector size. -/
def sampleSector (shift : UInt8) : Bytes :=
  [0xEB, 0x76, 0x90, 0x45, 0x58, 0x46, 0x41, 0x54, 0x20, 0x20, 0x20] ++ List.replicate 53 0 ++ natLE 8 0 ++ natLE 8 4096 ++ natLE 4 24 ++ natLE 4 32 ++
  natLE 4 56 ++ natLE 4 4000 ++ natLE 4 4 ++ natLE 4 0x12345678 ++ [0, 1, 0, 0, shift, 0, 1, 0x80, 0] ++ List.replicate 397 0 ++ [0x55, 0xAA]

/-- Three copies of a checksum, then zeros up to the size of the sector. -/
def sampleSum (sum size : Nat) : Bytes := natLE 4 sum ++ natLE 4 sum ++ natLE 4 sum ++ List.replicate (size - 12) 0

/-- A boot region with sectors of 512 bytes. -/
def sampleRegion : Bytes := sampleSector 9 ++ List.replicate (10 * 512) 0 ++ sampleSum 580571590 512

/-- A boot region with a checksum for sectors of 512 bytes and one for sectors of 1024 bytes. -/
def sampleDouble (shift : UInt8) : Bytes := sampleSector shift ++ List.replicate (10 * 512) 0 ++ sampleSum 580571590 5632 ++ sampleSum 581409158 1024

theorem rotateSum_lt (l : Bytes) : rotateSum 31 l < 2 ^ 32 := foldl_lt 31 l (by decide)

theorem slice_prefix {a b : Bytes} {i j : Nat} (h : j ≤ a.length) : slice (a ++ b) i j = slice a i j := by
  apply List.ext_getElem?
  intro k
  rw [slice_getElem?, slice_getElem?]
  split
  · rw [List.getElem?_append_left (by omega)]
  · rfl

/-- The checksum of a region with a first sector, more sectors, and the sector with the checksum. -/
theorem regionChecksum_split (first more rest : Bytes) (h1 : first.length = 512) (h2 : first.length + more.length = 11 * sectorSize (first ++ more ++ rest)) :
    regionChecksum (first ++ more ++ rest) = more.foldl (rotateAdd 31) (rotateSum 31 (slice first 0 106 ++ slice first 108 112 ++ slice first 113 512)) := by
  unfold regionChecksum covered rotateSum
  rw [← List.foldl_append]
  congr 1
  rw [← h2, slice_prefix (a := first ++ more) (by rw [List.length_append]; omega), slice_prefix (a := first ++ more) (by rw [List.length_append]; omega),
    slice_prefix (a := first ++ more) (by rw [List.length_append]; omega), slice_prefix (a := first) (by omega), slice_prefix (a := first) (by omega)]
  rw [List.append_assoc, List.append_assoc, List.append_assoc]
  congr 2
  apply List.ext_getElem?
  intro k
  rw [slice_getElem?, List.getElem?_append, List.getElem?_append, slice_getElem?, slice_length, h1]
  by_cases hk : k < 512 - 113
  · rw [if_pos (by omega), if_pos (by omega), if_pos (by omega), if_pos (by omega)]
  · rw [if_neg (show ¬ k < min (512 - 113) (512 - 113) by omega)]
    split
    · rw [if_neg (by omega)]; exact congrArg (fun n => more[n]?) (by omega)
    · rw [List.getElem?_eq_none (by omega)]

theorem slice_skip {a b : Bytes} {i j : Nat} (h : a.length ≤ i) : slice (a ++ b) i j = slice b (i - a.length) (j - a.length) := by
  apply List.ext_getElem?
  intro k
  rw [slice_getElem?, slice_getElem?, List.getElem?_append_right (by omega)]
  by_cases hk : k < j - i
  · rw [if_pos hk, if_pos (by omega)]; congr 1; omega
  · rw [if_neg hk, if_neg (by omega)]

theorem u8_prefix {a b : Bytes} {i : Nat} (h : i + 1 ≤ a.length) : u8 (a ++ b) i = u8 a i := by unfold u8; rw [slice_prefix h]
theorem u16_prefix {a b : Bytes} {i : Nat} (h : i + 2 ≤ a.length) : u16 (a ++ b) i = u16 a i := by unfold u16; rw [slice_prefix h]
theorem u32_prefix {a b : Bytes} {i : Nat} (h : i + 4 ≤ a.length) : u32 (a ++ b) i = u32 a i := by unfold u32; rw [slice_prefix h]
theorem u64_prefix {a b : Bytes} {i : Nat} (h : i + 8 ≤ a.length) : u64 (a ++ b) i = u64 a i := by unfold u64; rw [slice_prefix h]

/-- What the first sector has to say. -/
def GoodSector (first : Bytes) : Prop :=
  first.length = 512 ∧ slice first 3 11 = [0x45, 0x58, 0x46, 0x41, 0x54, 0x20, 0x20, 0x20] ∧ slice first 510 512 = [0x55, 0xAA] ∧
  (∀ i, i < 64 → 11 ≤ i → first[i]? = some 0) ∧ (9 ≤ u8 first 108 ∧ u8 first 108 ≤ 12) ∧ u8 first 108 + u8 first 109 ≤ 25 ∧
  2 ^ 20 ≤ volumeSectors first * sectorSize first ∧ (tableCount first = 1 ∨ tableCount first = 2) ∧ (secondActive first → tableCount first = 2) ∧
  24 ≤ tableStart first ∧ tableStart first + tableCount first * tableSectors first ≤ heapStart first ∧
  4 * (clusterCount first + 2) ≤ tableSectors first * sectorSize first ∧ clusterCount first ≤ 0xFFFFFFF5 ∧
  heapStart first + clusterCount first * clusterSectors first ≤ volumeSectors first ∧ heapStart first ≤ clusterCount first * clusterSectors first ∧
  (2 ≤ rootCluster first ∧ rootCluster first ≤ clusterCount first + 1) ∧ (u8 first 105 = 1 ∧ u8 first 104 ≤ 99)

instance (first : Bytes) : Decidable (GoodSector first) := by unfold GoodSector; infer_instance

theorem sampleSum_length {sum size : Nat} (h : 12 ≤ size) : (sampleSum sum size).length = size := by
  unfold sampleSum
  simp only [List.length_append, natLE_length, List.length_replicate]
  omega

theorem sampleSum_slice {sum size i : Nat} (hi : i < 3) (hsize : 12 ≤ size) : slice (sampleSum sum size) (4 * i) (4 * i + 4) = natLE 4 sum := by
  unfold sampleSum
  have hn : (natLE 4 sum).length = 4 := natLE_length _ _
  have : i = 0 ∨ i = 1 ∨ i = 2 := by omega
  have hall : slice (natLE 4 sum) 0 4 = natLE 4 sum := slice_all (by omega)
  rcases this with rfl | rfl | rfl
  · rw [List.append_assoc, List.append_assoc, slice_prefix (by omega)]; exact hall
  · rw [List.append_assoc, List.append_assoc, slice_skip (by omega), slice_prefix (by omega), hn]; exact hall
  · rw [List.append_assoc, slice_skip (by rw [List.length_append]; omega), slice_prefix (by rw [List.length_append]; omega), List.length_append, hn]; exact hall

/-- A region that starts with a good sector is accepted when its checksums hold. -/
theorem region_accepted (first more rest : Bytes) (sum size : Nat) (hgood : GoodSector first)
    (hlen : 512 + more.length = 11 * sectorSize first) (h512 : (size + rest.length) % 512 = 0) (hmin : 512 ≤ size) (hsum : sum < 2 ^ 32)
    (hfold : more.foldl (rotateAdd 31) (rotateSum 31 (slice first 0 106 ++ slice first 108 112 ++ slice first 113 512)) = sum) :
    openBR (first ++ more ++ (sampleSum sum size ++ rest)) = .ok ⟨first ++ more ++ (sampleSum sum size ++ rest)⟩ := by
  obtain ⟨hl, g1, g2, g3, g4, g5, g6, g7, g8, g9, g10, g11, g12, g13, g14, g15, g16⟩ := hgood
  have hsumlen := sampleSum_length (sum := sum) (size := size) (by omega)
  generalize htail : sampleSum sum size ++ rest = tail at *
  have htl : tail.length = size + rest.length := by rw [← htail, List.length_append, hsumlen]
  have hsec : sectorSize (first ++ more ++ tail) = sectorSize first := by
    unfold sectorSize; rw [List.append_assoc, u8_prefix (by omega)]
  have hchk := regionChecksum_split first more tail hl (by rw [hsec, hl]; exact hlen)
  rw [hfold] at hchk
  have hd : 512 ∣ sectorSize first := Nat.pow_dvd_pow 2 (m := 9) g4.1
  have hlen' : (first ++ more ++ tail).length = 11 * sectorSize first + size + rest.length := by
    simp only [List.length_append, hl, htl]; omega
  have hsz : ∀ i, i < 3 → u32 (first ++ more ++ tail) (11 * sectorSize first + 4 * i) = sum := by
    intro i hi
    unfold u32
    rw [slice_skip (by rw [List.length_append]; omega), show (first ++ more).length = 11 * sectorSize first by rw [List.length_append]; omega, ← htail,
      slice_prefix (by rw [hsumlen]; omega), show 11 * sectorSize first + 4 * i - 11 * sectorSize first = 4 * i by omega,
      show 11 * sectorSize first + 4 * i + 4 - 11 * sectorSize first = 4 * i + 4 by omega, sampleSum_slice hi (by omega), leNat_natLE]
    exact Nat.mod_eq_of_lt hsum
  have hpos : 512 ≤ sectorSize first := Nat.le_of_dvd (Nat.two_pow_pos _) hd
  clear hfold htail htl hsumlen hsum
  refine (C65_accepted _ _).mpr ⟨rfl, by omega, by omega, ?_⟩
  have hcomplete : 11 * sectorSize first + 12 ≤ (first ++ more ++ tail).length := by omega
  clear hlen hlen' h512 hd hmin hpos
  have hzero : ∀ i, 11 ≤ i → i < 64 → (first ++ more ++ tail)[i]? = some 0 := by
    intro i h1 h2
    rw [List.append_assoc, List.getElem?_append_left (by omega)]
    exact g3 i h2 h1
  have e1 : ∀ i, i < 512 → u8 (first ++ more ++ tail) i = u8 first i := fun i hi => by rw [List.append_assoc]; exact u8_prefix (by omega)
  have e2 : ∀ i, i < 511 → u16 (first ++ more ++ tail) i = u16 first i := fun i hi => by rw [List.append_assoc]; exact u16_prefix (by omega)
  have e3 : ∀ i, i < 509 → u32 (first ++ more ++ tail) i = u32 first i := fun i hi => by rw [List.append_assoc]; exact u32_prefix (by omega)
  have e4 : ∀ i, i < 505 → u64 (first ++ more ++ tail) i = u64 first i := fun i hi => by rw [List.append_assoc]; exact u64_prefix (by omega)
  have v1 : volumeSectors (first ++ more ++ tail) = volumeSectors first := e4 72 (by decide)
  have v2 : tableStart (first ++ more ++ tail) = tableStart first := e3 80 (by decide)
  have v3 : tableSectors (first ++ more ++ tail) = tableSectors first := e3 84 (by decide)
  have v4 : heapStart (first ++ more ++ tail) = heapStart first := e3 88 (by decide)
  have v5 : Spec.ExFAT.clusterCount (first ++ more ++ tail) = Spec.ExFAT.clusterCount first := e3 92 (by decide)
  have v6 : rootCluster (first ++ more ++ tail) = rootCluster first := e3 96 (by decide)
  have v7 : tableCount (first ++ more ++ tail) = tableCount first := e1 110 (by decide)
  have v8 : clusterSectors (first ++ more ++ tail) = clusterSectors first := by unfold clusterSectors; rw [e1 109 (by decide)]
  have v9 : secondActive (first ++ more ++ tail) = secondActive first := by unfold secondActive; rw [e2 106 (by decide)]
  constructor
  case name => rw [List.append_assoc, slice_prefix (by omega)]; exact g1
  case signature => rw [List.append_assoc, slice_prefix (by omega)]; exact g2
  case zeros => exact hzero
  case checksum => intro i hi; rw [hchk, hsec]; exact hsz i hi
  case complete => rw [hsec]; exact hcomplete
  case sector => rw [e1 108 (by decide)]; exact g4
  case cluster => rw [e1 108 (by decide), e1 109 (by decide)]; exact g5
  case volume => rw [v1, hsec]; exact g6
  case tables => rw [v7]; exact g7
  case active => rw [v9, v7]; exact g8
  case tableAfter => rw [v2]; exact g9
  case tableBefore => rw [v2, v7, v3, v4]; exact g10
  case tableSize => rw [v5, v3, hsec]; exact g11
  case count => rw [v5]; exact g12
  case inside => rw [v4, v5, v8, v1]; exact g13
  case heap => rw [v4, v5, v8]; exact g14
  case root => rw [v6, v5]; exact g15
  case version => rw [e1 105 (by decide), e1 104 (by decide)]; exact g16

theorem sampleRegion_accepted : openBR sampleRegion = .ok ⟨sampleRegion⟩ := by
  have := region_accepted (sampleSector 9) (List.replicate (10 * 512) 0) [] 580571590 512 (by decide +kernel) (by decide +kernel) (by decide) (by decide) (by decide)
    (by rw [show 10 * 512 = 32 * 160 by decide, rotate_zero_blocks _ (rotateSum_lt _)]; decide +kernel)
  rwa [List.append_nil] at this

example : Consistent sampleRegion := ((C65_accepted sampleRegion ⟨sampleRegion⟩).mp sampleRegion_accepted).2.2.2

example : ∃ heap, openHeap [] 512 none ⟨sampleRegion⟩ = .ok heap := (C65_layout sampleRegion [] 512 none ⟨sampleRegion⟩ sampleRegion_accepted).1 (by decide)

example : ∀ br, openBR (sampleRegion.set 300 1) ≠ .ok br := by
  have h : DifferOnlyAt sampleRegion (sampleRegion.set 300 1) 300 := by
    refine ⟨fun j hj => ?_, by decide +kernel, by rw [List.length_set], by decide +kernel⟩
    rw [List.getElem?_set_ne (by omega)]
  exact (C66_boot_region_partial _ _ 300 h (by decide) (by decide) (by decide +kernel) ⟨sampleRegion⟩ sampleRegion_accepted).2

theorem sampleDouble_9 : openBR (sampleDouble 9) = .ok ⟨sampleDouble 9⟩ := by
  have := region_accepted (sampleSector 9) (List.replicate (10 * 512) 0) (sampleSum 581409158 1024) 580571590 5632 (by decide +kernel) (by decide +kernel)
    (by rw [sampleSum_length (by decide)]) (by decide) (by decide)
    (by rw [show 10 * 512 = 32 * 160 by decide, rotate_zero_blocks _ (rotateSum_lt _)]; decide +kernel)
  rwa [← List.append_assoc] at this

theorem sampleDouble_10 : openBR (sampleDouble 10) = .ok ⟨sampleDouble 10⟩ := by
  have := region_accepted (sampleSector 10) (List.replicate (10 * 512) 0 ++ sampleSum 580571590 5632) [] 581409158 1024 (by decide +kernel)
    (by rw [List.length_append, List.length_replicate, sampleSum_length (by decide)]; decide +kernel)
    (by decide) (by decide) (by decide)
    (by
      unfold sampleSum
      rw [show 10 * 512 = 32 * 160 by decide, List.foldl_append, rotate_zero_blocks _ (rotateSum_lt _),
        show 5632 - 12 = 20 + 32 * 175 by decide, ← List.replicate_append_replicate, ← List.append_assoc, List.foldl_append,
        rotate_zero_blocks _ (foldl_lt 31 _ (rotateSum_lt _))]
      decide +kernel)
  rw [List.append_nil, ← List.append_assoc] at this
  exact this

theorem sampleDouble_differ : DifferOnlyAt (sampleDouble 9) (sampleDouble 10) 108 := by
  have hl : ∀ s : UInt8, (sampleSector s).length = 512 := fun s => by
    simp only [sampleSector, List.length_append, natLE_length, List.length_replicate, List.length_cons, List.length_nil]
  have hset : sampleSector 10 = (sampleSector 9).set 108 10 := by decide +kernel
  have e : ∀ s j, j < 512 → (sampleDouble s)[j]? = (sampleSector s)[j]? := fun s j hj => by
    unfold sampleDouble
    rw [List.append_assoc, List.append_assoc, List.getElem?_append_left (by rw [hl]; exact hj)]
  refine ⟨fun j hj => ?_, ?_, ?_, ?_⟩
  · by_cases h : j < 512
    · rw [e _ _ h, e _ _ h, hset, List.getElem?_set_ne (by omega)]
    · unfold sampleDouble
      simp only [List.append_assoc]
      generalize List.replicate (10 * 512) (0 : UInt8) ++ (sampleSum 580571590 5632 ++ sampleSum 581409158 1024) = rest
      rw [List.getElem?_append_right (by rw [hl]; omega), List.getElem?_append_right (by rw [hl]; omega), hl, hl]
  · unfold sampleDouble
    simp only [List.length_append, hl]; omega
  · unfold sampleDouble
    simp only [List.length_append, hl]
  · rw [e _ _ (by decide), e _ _ (by decide)]; decide +kernel

/-- C66 does not hold for the byte with the sector size: a region that differs from an accepted one in that byte only
can be accepted too, since other bytes are under the checksum and the checksum is in another place. -/
theorem C66_sector_size_undetected :
    DifferOnlyAt (sampleDouble 9) (sampleDouble 10) 108 ∧ openBR (sampleDouble 9) = .ok ⟨sampleDouble 9⟩ ∧ openBR (sampleDouble 10) = .ok ⟨sampleDouble 10⟩ :=
  ⟨sampleDouble_differ, sampleDouble_9, sampleDouble_10⟩

/-! ### C67 -/

def Good {α : Type} (x : Except Exc α) : Prop := ∀ e, x = .error e → caughtBR e = true

theorem good_throw {α : Type} {e : Exc} (h : caughtBR e = true) : Good (throw e : Except Exc α) := by
  intro e' h'; cases h'; exact h

theorem good_pure {α : Type} (a : α) : Good (pure a : Except Exc α) := by
  intro e' h'; cases h'

theorem good_bind {α β : Type} {x : Except Exc α} {f : α → Except Exc β} (hx : Good x) (hf : ∀ a, x = .ok a → Good (f a)) : Good (x >>= f) := by
  intro e h
  cases x with
  | error e' => exact hx e (by simpa only [bind, Except.bind, Except.error.injEq] using h)
  | ok a => exact hf a rfl e h

theorem good_ite {α : Type} {c : Prop} [Decidable c] {x y : Except Exc α} (hx : c → Good x) (hy : ¬ c → Good y) : Good (if c then x else y) := by
  split
  · exact hx (by assumption)
  · exact hy (by assumption)

theorem good_guard {α β : Type} {c : Prop} [Decidable c] {e : Exc} {f : β → Except Exc α} {g : Except Exc α} (h : caughtBR e = true) (hg : ¬ c → Good g) :
    Good (if c then ((throw e : Except Exc β) >>= f) else g) := by
  refine good_ite (fun _ => ?_) hg
  intro e' h'; cases h'; exact h

theorem bytesPerSector_good (b : BR) : Good b.bytesPerSector := by
  unfold BR.bytesPerSector
  exact good_ite (fun _ => good_throw rfl) (fun _ => good_pure _)

theorem sectorsPerCluster_good (b : BR) : Good b.sectorsPerCluster := by
  unfold BR.sectorsPerCluster
  exact good_ite (fun _ => good_throw rfl) (fun _ => good_pure _)

theorem checkNumbers_good (b : BR) : Good b.checkNumbers := by
  unfold BR.checkNumbers
  refine good_bind (bytesPerSector_good b) fun n _ => ?_
  refine good_guard rfl fun _ => ?_
  refine good_guard rfl fun _ => ?_
  refine good_guard rfl fun _ => ?_
  refine good_bind (sectorsPerCluster_good b) fun m _ => ?_
  refine good_guard rfl fun _ => ?_
  refine good_guard rfl fun _ => ?_
  refine good_guard rfl fun _ => ?_
  refine good_guard rfl fun _ => ?_
  refine good_guard rfl fun _ => ?_
  refine good_guard rfl fun _ => ?_
  refine good_guard rfl fun _ => ?_
  refine good_guard rfl fun _ => ?_
  refine good_guard rfl fun _ => ?_
  refine good_guard rfl fun _ => ?_
  refine good_guard rfl fun _ => ?_
  exact good_ite (fun _ => good_throw rfl) (fun _ => good_pure _)

theorem checkChecksum_good (b : BR) (hl : 12 * 4096 ≤ b.buf.length) : Good b.checkChecksum := by
  unfold BR.checkChecksum
  have hsec : ∀ n, b.bytesPerSector = .ok n → n ≤ 4096 := by
    intro n hn
    obtain ⟨h, rfl⟩ := bytesPerSector_ok.mp hn
    exact Nat.pow_le_pow_right (n := 2) (j := 12) (by decide) h.2
  refine good_bind ?_ fun c _ => good_bind ?_ fun d _ => good_ite (fun _ => good_throw rfl) (fun _ => good_pure _)
  · unfold BR.checksum
    refine good_bind (bytesPerSector_good b) fun n hn => ?_
    have := hsec n hn
    refine good_guard rfl fun _ => ?_
    unfold unpackLE
    rw [if_pos (by rw [slice_length]; omega)]
    exact good_pure _
  · unfold BR.calculateChecksum
    refine good_bind (bytesPerSector_good b) fun n hn => ?_
    have := hsec n hn
    exact good_ite (fun h => absurd h (by omega)) (fun _ => good_pure _)

theorem openBR_good (buf : Bytes) (hl : 12 * 4096 ≤ buf.length) : Good (openBR buf) := by
  unfold openBR
  refine good_guard rfl fun _ => good_bind ?_ fun _ _ => good_pure _
  unfold BR.validate
  refine good_guard rfl fun _ => good_guard rfl fun _ => good_guard rfl fun _ => ?_
  exact good_bind (checkChecksum_good _ hl) fun _ _ => checkNumbers_good _

/-- The twelve sectors at a place of the volume; as many bytes as twelve of the largest sectors have. -/
def regionAt (object : Bytes) (offset place : Nat) : Bytes := slice object (offset + place) (offset + place + 12 * 4096)

theorem tryBR_eq {object : Bytes} {offset place : Nat} (h : offset + place < 2 ^ 63) : tryBR object offset place = openBR (regionAt object offset place) := by
  unfold tryBR seekRead
  rw [if_neg (by omega)]
  rfl

theorem chooseBR_cons_error {object : Bytes} {offset place : Nat} {rest : List Nat} (h : offset + place < 2 ^ 63)
    (hlen : offset + place + 12 * 4096 ≤ object.length) (hr : ∀ br, openBR (regionAt object offset place) ≠ .ok br) :
    chooseBR object offset (place :: rest) = chooseBR object offset rest := by
  rw [chooseBR, tryBR_eq h]
  cases ho : openBR (regionAt object offset place) with
  | ok br => exact absurd ho (hr br)
  | error e =>
    dsimp only
    rw [if_pos (openBR_good _ (by unfold regionAt; rw [slice_length]; omega) e ho)]

theorem chooseBR_cons_ok {object : Bytes} {offset place : Nat} {rest : List Nat} {br : BR} (h : offset + place < 2 ^ 63)
    (hr : openBR (regionAt object offset place) = .ok br) :
    chooseBR object offset (place :: rest) = .ok (some (br, place)) := by
  rw [chooseBR, tryBR_eq h, hr]

theorem selectBR_of_choose {object : Bytes} {offset place n : Nat} {br : BR}
    (h : chooseBR object offset [0, 12 * 512, 12 * 4096] = .ok (some (br, place))) (hb : br.bytesPerSector = .ok n) :
    selectBR object offset = if (place = 12 * 512 ∧ n ≠ 512) ∨ (place = 12 * 4096 ∧ n ≠ 4096) then .error .BootRegionException else .ok (br, decide (place ≠ 0)) := by
  unfold selectBR
  simp only [h, hb, bind, Except.bind, throw, throwThe, MonadExceptOf.throw, pure, Except.pure]
  by_cases h1 : place = 12 * 512 ∧ n ≠ 512
  · rw [if_pos h1, if_pos (Or.inl h1)]
  · rw [if_neg h1]
    by_cases h2 : place = 12 * 4096 ∧ n ≠ 4096
    · rw [if_pos h2, if_pos (Or.inr h2)]
    · rw [if_neg h2, if_neg]
      rintro (h | h)
      · exact h1 h
      · exact h2 h

theorem accepted_sector {region : Bytes} {br : BR} (h : openBR region = .ok br) : br.bytesPerSector = .ok (sectorSize region) := by
  obtain ⟨rfl, _, _, hc⟩ := (C65_accepted _ br).mp h
  exact bytesPerSector_ok.mpr ⟨hc.sector, rfl⟩

/-- C67, sectors of 512 bytes: when the main boot region is not accepted and the backup after it is, the volume is
opened with the backup (and it is recorded that this is the backup). -/
theorem C67_backup_512 (object : Bytes) (offset : Nat) (hlen : offset + 2 ^ 20 ≤ object.length) (hbig : offset + 2 ^ 20 ≤ 2 ^ 63) (br : BR)
    (hmain : ∀ br', openBR (regionAt object offset 0) ≠ .ok br') (hbackup : openBR (regionAt object offset (12 * 512)) = .ok br)
    (hsector : sectorSize (regionAt object offset (12 * 512)) = 512) :
    selectBR object offset = .ok (br, true) := by
  have hc : chooseBR object offset [0, 12 * 512, 12 * 4096] = .ok (some (br, 12 * 512)) := by
    rw [chooseBR_cons_error (by omega) (by omega) hmain, chooseBR_cons_ok (by omega) hbackup]
  rw [selectBR_of_choose hc (accepted_sector hbackup), hsector, if_neg (by omega)]
  simp

/-- C67, sectors of 4096 bytes: the same, when there is also no boot region where the backup of a volume with sectors
of 512 bytes is.  The rest of the claim is false: `C67_other_sector_sizes`, `C67_backup_4096_hidden`. -/
theorem C67_backup_4096_partial (object : Bytes) (offset : Nat) (hlen : offset + 2 ^ 20 ≤ object.length) (hbig : offset + 2 ^ 20 ≤ 2 ^ 63) (br : BR)
    (hmain : ∀ br', openBR (regionAt object offset 0) ≠ .ok br') (hother : ∀ br', openBR (regionAt object offset (12 * 512)) ≠ .ok br')
    (hbackup : openBR (regionAt object offset (12 * 4096)) = .ok br) (hsector : sectorSize (regionAt object offset (12 * 4096)) = 4096) :
    selectBR object offset = .ok (br, true) := by
  have hc : chooseBR object offset [0, 12 * 512, 12 * 4096] = .ok (some (br, 12 * 4096)) := by
    rw [chooseBR_cons_error (by omega) (by omega) hmain, chooseBR_cons_error (by omega) (by omega) hother, chooseBR_cons_ok (by omega) hbackup]
  rw [selectBR_of_choose hc (accepted_sector hbackup), hsector, if_neg (by omega)]
  simp

/-- C67: what a boot region that is used is: the main one, exactly when it is accepted; otherwise one of the two
backups, in the place for its own sector size. -/
theorem C67_used (object : Bytes) (offset : Nat) (hbig : offset + 2 ^ 20 ≤ 2 ^ 63) (br : BR) (backup : Bool) (h : selectBR object offset = .ok (br, backup)) :
    (backup = false ∧ openBR (regionAt object offset 0) = .ok br) ∨
    (backup = true ∧ (∀ br', openBR (regionAt object offset 0) ≠ .ok br') ∧
      ∃ n, (n = 512 ∨ n = 4096) ∧ openBR (regionAt object offset (12 * n)) = .ok br ∧ sectorSize (regionAt object offset (12 * n)) = n) := by
  have hfound : ∃ r, chooseBR object offset [0, 12 * 512, 12 * 4096] = .ok (some r) := by
    unfold selectBR at h
    obtain ⟨r, hr, h⟩ := bind_ok.mp h
    cases r with
    | none => cases h
    | some r => exact ⟨r, hr⟩
  obtain ⟨⟨b, place⟩, hr⟩ := hfound
  have hstep : ∀ place' rest, offset + place' < 2 ^ 63 → chooseBR object offset (place' :: rest) = .ok (some (b, place)) →
      (openBR (regionAt object offset place') = .ok b ∧ place = place') ∨
      ((∀ br', openBR (regionAt object offset place') ≠ .ok br') ∧ chooseBR object offset rest = .ok (some (b, place))) := by
    intro place' rest hp hc
    rw [chooseBR, tryBR_eq hp] at hc
    cases ho : openBR (regionAt object offset place') with
    | ok b' => rw [ho] at hc; cases hc; exact Or.inl ⟨rfl, rfl⟩
    | error e =>
      rw [ho] at hc
      dsimp only at hc
      split at hc
      · exact Or.inr ⟨(fun _ h => by cases h), hc⟩
      · cases hc
  rcases hstep 0 _ (by omega) hr with ⟨h0, rfl⟩ | ⟨h0, hr1⟩
  · rw [selectBR_of_choose hr (accepted_sector h0), if_neg (by omega)] at h
    cases h
    exact Or.inl ⟨rfl, h0⟩
  · rcases hstep (12 * 512) _ (by omega) hr1 with ⟨h1, rfl⟩ | ⟨h1, hr2⟩
    · rw [selectBR_of_choose hr (accepted_sector h1)] at h
      split at h
      · cases h
      · cases h
        exact Or.inr ⟨rfl, h0, 512, Or.inl rfl, h1, by omega⟩
    · rcases hstep (12 * 4096) _ (by omega) hr2 with ⟨h2, rfl⟩ | ⟨h2, hr3⟩
      · rw [selectBR_of_choose hr (accepted_sector h2)] at h
        split at h
        · cases h
        · cases h
          exact Or.inr ⟨rfl, h0, 4096, Or.inr rfl, h2, by omega⟩
      · cases hr3

/-- C67: the volume that is opened is the one of the selected boot region, and it says whether that is a backup. -/
theorem C67_reported (object : Bytes) (offset : Nat) (size : Option Nat) (v : Volume) (h : openVolume object offset size = .ok v) :
    selectBR object offset = .ok (v.br, v.backupUsed) ∧ openHeap object offset size v.br = .ok v.toHeap ∧ findBitmap v.toHeap v.br = .ok v.bitmap := by
  unfold openVolume at h
  rw [ite_throw_ok] at h
  obtain ⟨_, h⟩ := h
  obtain ⟨⟨br, b⟩, h1, h⟩ := bind_ok.mp h
  obtain ⟨heap, h2, h⟩ := bind_ok.mp h
  obtain ⟨bm, h3, h⟩ := bind_ok.mp h
  cases h
  exact ⟨h1, h2, h3⟩

/-- C67: with a selected boot region, nothing else but the table, the root directory and the bitmap decides whether
the volume is opened. -/
theorem C67_proceeds (object : Bytes) (offset : Nat) (size : Option Nat) (hsize : ∀ n, size = some n → 2 ^ 20 ≤ n) (br : BR) (backup : Bool) (heap : Heap) (bitmap : Bitmap)
    (h1 : selectBR object offset = .ok (br, backup)) (h2 : openHeap object offset size br = .ok heap) (h3 : findBitmap heap br = .ok bitmap) :
    ∃ v, openVolume object offset size = .ok v ∧ v.br = br ∧ v.backupUsed = backup := by
  unfold openVolume
  rw [if_neg]
  · simp only [h1, h2, h3, bind, Except.bind]
    exact ⟨_, rfl, rfl, rfl⟩
  · cases size with
    | none => simp
    | some n => have := hsize n rfl; simp; omega

/-! ### Volumes with a damaged main boot region -/

def zeros (n : Nat) : Bytes := List.replicate n 0

theorem zeros_length (n : Nat) : (zeros n).length = n := List.length_replicate

theorem zeros_slice {n i j : Nat} (h : j ≤ n) : slice (zeros n) i j = zeros (j - i) := by
  apply List.ext_getElem?
  intro k
  rw [slice_getElem?]
  unfold zeros
  rw [List.getElem?_replicate, List.getElem?_replicate]
  by_cases hk : k < j - i
  · rw [if_pos hk, if_pos hk, if_pos (by omega)]
  · rw [if_neg hk, if_neg hk]

theorem zeros_fold (s : Nat) (hs : s < 2 ^ 32) (k : Nat) : (zeros (32 * k)).foldl (rotateAdd 31) s = s := rotate_zero_blocks s hs k

theorem accepted_first {region : Bytes} {br : BR} (h : openBR region = .ok br) : region[3]? = some 0x45 := by
  have hn := ((C65_accepted region br).mp h).2.2.2.name
  have := congrArg (fun l => l[0]?) hn
  simpa [slice_getElem?] using this

theorem not_accepted {object : Bytes} {offset place : Nat} (h : object[offset + place + 3]? = some 0) (br : BR) : openBR (regionAt object offset place) ≠ .ok br := by
  intro ho
  have := accepted_first ho
  unfold regionAt at this
  rw [slice_getElem?, if_pos (by omega), h] at this
  cases this

theorem slice_cut {a : Bytes} {j : Nat} (h : a.length ≤ j) : slice a 0 j = a := by
  unfold slice
  rw [Nat.sub_zero, List.drop_zero, List.take_of_length_le h]

/-- A region inside of a volume: some bytes, the region, and more bytes. -/
theorem regionAt_inside (before region after : Bytes) (place : Nat) (hb : before.length = place) (hl : region.length ≤ 12 * 4096) :
    regionAt (before ++ (region ++ after)) 0 place = region ++ slice after 0 (12 * 4096 - region.length) := by
  unfold regionAt
  rw [Nat.zero_add, slice_skip (by omega), hb, Nat.sub_self, Nat.add_sub_cancel_left]
  apply List.ext_getElem?
  intro k
  rw [slice_getElem?, List.getElem?_append, List.getElem?_append, slice_getElem?, Nat.zero_add, Nat.zero_add]
  by_cases h1 : k < region.length
  · rw [if_pos (by omega), if_pos h1, if_pos h1]
  · rw [if_neg h1, if_neg h1]
    by_cases h2 : k < 12 * 4096 - 0
    · rw [if_pos h2, if_pos (by omega)]
    · rw [if_neg h2, if_neg (by omega)]

/-- A boot region with sectors of 4096 bytes. -/
def sampleLarge : Bytes := sampleSector 12 ++ zeros (11 * 4096 - 512) ++ (sampleSum 580620742 4096)

theorem sampleSector_length (s : UInt8) : (sampleSector s).length = 512 := by
  simp only [sampleSector, List.length_append, natLE_length, List.length_replicate, List.length_cons, List.length_nil]

theorem sampleRegion_length : sampleRegion.length = 6144 := by
  unfold sampleRegion
  rw [List.length_append, List.length_append, sampleSector_length, List.length_replicate, sampleSum_length (by decide)]

theorem sampleDouble_length : (sampleDouble 10).length = 12288 := by
  unfold sampleDouble
  rw [List.length_append, List.length_append, List.length_append, sampleSector_length, List.length_replicate, sampleSum_length (by decide), sampleSum_length (by decide)]

theorem sampleLarge_length : sampleLarge.length = 49152 := by
  unfold sampleLarge
  rw [List.length_append, List.length_append, sampleSector_length, zeros_length, sampleSum_length (by decide)]

/-- A sample region with more bytes after it. -/
theorem sampleRegion_inside (rest : Bytes) (h : rest.length % 512 = 0) : openBR (sampleRegion ++ rest) = .ok ⟨sampleRegion ++ rest⟩ := by
  have := region_accepted (sampleSector 9) (List.replicate (10 * 512) 0) rest 580571590 512 (by decide +kernel) (by decide +kernel) (by omega) (by decide) (by decide)
    (by rw [show 10 * 512 = 32 * 160 by decide, rotate_zero_blocks _ (rotateSum_lt _)]; decide +kernel)
  rw [← List.append_assoc] at this
  exact this

theorem sampleDouble_inside (rest : Bytes) (h : rest.length % 512 = 0) : openBR (sampleDouble 10 ++ rest) = .ok ⟨sampleDouble 10 ++ rest⟩ := by
  have := region_accepted (sampleSector 10) (List.replicate (10 * 512) 0 ++ sampleSum 580571590 5632) rest 581409158 1024 (by decide +kernel)
    (by rw [List.length_append, List.length_replicate, sampleSum_length (by decide)]; decide +kernel)
    (by omega) (by decide) (by decide)
    (by
      unfold sampleSum
      rw [show 10 * 512 = 32 * 160 by decide, List.foldl_append, rotate_zero_blocks _ (rotateSum_lt _),
        show 5632 - 12 = 20 + 32 * 175 by decide, ← List.replicate_append_replicate, ← List.append_assoc, List.foldl_append,
        rotate_zero_blocks _ (foldl_lt 31 _ (rotateSum_lt _))]
      decide +kernel)
  rw [← List.append_assoc, ← List.append_assoc] at this
  exact this

theorem sampleLarge_inside (rest : Bytes) (h : rest.length % 512 = 0) : openBR (sampleLarge ++ rest) = .ok ⟨sampleLarge ++ rest⟩ := by
  have := region_accepted (sampleSector 12) (zeros (11 * 4096 - 512)) rest 580620742 4096 (by decide +kernel)
    (by rw [zeros_length]; decide +kernel) (by omega) (by decide) (by decide)
    (by rw [show 11 * 4096 - 512 = 32 * 1392 by decide, zeros_fold _ (rotateSum_lt _)]; decide +kernel)
  rw [← List.append_assoc] at this
  exact this

theorem sector_of_prefix {s : UInt8} {a : Bytes} : sectorSize (sampleSector s ++ a) = sectorSize (sampleSector s) := by
  unfold sectorSize
  rw [u8_prefix (by rw [sampleSector_length]; decide)]

theorem byte_zero {n i : Nat} {rest : Bytes} (h : i < n) : (zeros n ++ rest)[i]? = some 0 := by
  rw [List.getElem?_append_left (by rw [zeros_length]; exact h)]
  unfold zeros
  rw [List.getElem?_replicate, if_pos h]

theorem byte_zero_after {n i : Nat} {front : Bytes} (h : front.length ≤ i) (h2 : i < front.length + n) : (front ++ zeros n)[i]? = some 0 := by
  rw [List.getElem?_append_right h]
  unfold zeros
  rw [List.getElem?_replicate, if_pos (by omega)]

/-- A volume of two megabytes with zeros in place of the main boot region is opened with the backup. -/
example : let object := zeros 6144 ++ (sampleRegion ++ zeros (2 ^ 21)); ∃ br, selectBR object 0 = .ok (br, true) := by
  have hr := regionAt_inside (zeros 6144) sampleRegion (zeros (2 ^ 21)) 6144 (zeros_length _) (by rw [sampleRegion_length]; decide)
  rw [zeros_slice (by rw [sampleRegion_length]; decide)] at hr
  refine ⟨⟨sampleRegion ++ zeros (12 * 4096 - sampleRegion.length - 0)⟩, C67_backup_512 _ 0 ?_ (by decide) _ (not_accepted ?_) ?_ ?_⟩
  · rw [List.length_append, List.length_append, zeros_length, zeros_length]; omega
  · exact byte_zero (by decide)
  · show openBR (regionAt _ 0 6144) = _
    rw [hr]
    exact sampleRegion_inside _ (by rw [zeros_length, sampleRegion_length])
  · show sectorSize (regionAt _ 0 6144) = _
    rw [hr]
    unfold sampleRegion
    rw [List.append_assoc, List.append_assoc, sector_of_prefix]
    decide +kernel

/-- The same with sectors of 4096 bytes. -/
example : let object := zeros 49152 ++ (sampleLarge ++ zeros (2 ^ 24)); ∃ br, selectBR object 0 = .ok (br, true) := by
  have hr := regionAt_inside (zeros 49152) sampleLarge (zeros (2 ^ 24)) 49152 (zeros_length _) (by rw [sampleLarge_length]; decide)
  rw [zeros_slice (by rw [sampleLarge_length]; decide)] at hr
  refine ⟨⟨sampleLarge ++ zeros (12 * 4096 - sampleLarge.length - 0)⟩, C67_backup_4096_partial _ 0 ?_ (by decide) _ (not_accepted ?_) (not_accepted ?_) ?_ ?_⟩
  · rw [List.length_append, List.length_append, zeros_length, zeros_length]; omega
  · exact byte_zero (by decide)
  · exact byte_zero (by decide)
  · show openBR (regionAt _ 0 49152) = _
    rw [hr]
    exact sampleLarge_inside _ (by rw [zeros_length, sampleLarge_length])
  · show sectorSize (regionAt _ 0 49152) = _
    rw [hr]
    unfold sampleLarge
    rw [List.append_assoc, List.append_assoc, sector_of_prefix]
    decide +kernel

/-- C67 does not hold for sectors of 1024 bytes (or of 2048): their backup is never tried.  Zeros in place of the main
boot region, and a good backup in its place: the volume is refused. -/
theorem C67_other_sector_sizes : let object := zeros 12288 ++ (sampleDouble 10 ++ zeros (2 ^ 22))
    (∀ br, openBR (regionAt object 0 0) ≠ .ok br) ∧ (∃ br, openBR (regionAt object 0 (12 * 1024)) = .ok br) ∧
    sectorSize (regionAt object 0 (12 * 1024)) = 1024 ∧ selectBR object 0 = .error .BootRegionException := by
  intro object
  have hr := regionAt_inside (zeros 12288) (sampleDouble 10) (zeros (2 ^ 22)) 12288 (zeros_length _) (by rw [sampleDouble_length]; decide)
  rw [zeros_slice (by rw [sampleDouble_length]; decide)] at hr
  have h0 : ∀ br, openBR (regionAt object 0 0) ≠ .ok br := not_accepted (byte_zero (by decide))
  have h1 : ∀ br, openBR (regionAt object 0 (12 * 512)) ≠ .ok br := not_accepted (byte_zero (by decide))
  have h2 : ∀ br, openBR (regionAt object 0 (12 * 4096)) ≠ .ok br := by
    refine not_accepted ?_
    show (zeros 12288 ++ (sampleDouble 10 ++ zeros (2 ^ 22)))[_]? = _
    rw [← List.append_assoc]
    exact byte_zero_after (by rw [List.length_append, zeros_length, sampleDouble_length]; decide) (by rw [List.length_append, zeros_length, sampleDouble_length]; decide)
  have hl : object.length = 24576 + 2 ^ 22 := by
    show (zeros 12288 ++ (sampleDouble 10 ++ zeros (2 ^ 22))).length = _
    rw [List.length_append, List.length_append, zeros_length, zeros_length, sampleDouble_length]
  have hc : chooseBR object 0 [0, 12 * 512, 12 * 4096] = .ok none := by
    rw [chooseBR_cons_error (by decide) (by rw [hl]; decide) h0, chooseBR_cons_error (by decide) (by rw [hl]; decide) h1,
      chooseBR_cons_error (by decide) (by rw [hl]; decide) h2]
    rfl
  refine ⟨h0, ⟨⟨sampleDouble 10 ++ zeros (12 * 4096 - (sampleDouble 10).length - 0)⟩, ?_⟩, ?_, ?_⟩
  · show openBR (regionAt _ 0 12288) = _
    rw [hr]
    exact sampleDouble_inside _ (by rw [zeros_length, sampleDouble_length])
  · show sectorSize (regionAt _ 0 12288) = _
    rw [hr]
    unfold sampleDouble
    rw [List.append_assoc, List.append_assoc, List.append_assoc, sector_of_prefix]
    decide +kernel
  · unfold selectBR
    rw [hc]
    rfl

/-- C67 does not hold for sectors of 4096 bytes when there is a boot region (of another sector size) where the backup
of a volume with sectors of 512 bytes is: the good backup is not tried, the volume is refused. -/
theorem C67_backup_4096_hidden : let object := zeros 6144 ++ (sampleDouble 10 ++ (zeros 30720 ++ (sampleLarge ++ zeros (2 ^ 24))))
    (∀ br, openBR (regionAt object 0 0) ≠ .ok br) ∧ (∃ br, openBR (regionAt object 0 (12 * 4096)) = .ok br) ∧
    sectorSize (regionAt object 0 (12 * 4096)) = 4096 ∧ selectBR object 0 = .error .BootRegionException := by
  intro object
  have hobj : object = (zeros 6144 ++ (sampleDouble 10 ++ zeros 30720)) ++ (sampleLarge ++ zeros (2 ^ 24)) := by
    show zeros 6144 ++ (sampleDouble 10 ++ (zeros 30720 ++ (sampleLarge ++ zeros (2 ^ 24)))) = _
    rw [List.append_assoc, List.append_assoc]
  have hr := regionAt_inside (zeros 6144 ++ (sampleDouble 10 ++ zeros 30720)) sampleLarge (zeros (2 ^ 24)) 49152
    (by rw [List.length_append, List.length_append, zeros_length, zeros_length, sampleDouble_length]) (by rw [sampleLarge_length]; decide)
  rw [zeros_slice (by rw [sampleLarge_length]; decide), ← hobj] at hr
  have hr2 := regionAt_inside (zeros 6144) (sampleDouble 10) (zeros 30720 ++ (sampleLarge ++ zeros (2 ^ 24))) 6144 (zeros_length _) (by rw [sampleDouble_length]; decide)
  have hl2 : (slice (zeros 30720 ++ (sampleLarge ++ zeros (2 ^ 24))) 0 (12 * 4096 - (sampleDouble 10).length)).length % 512 = 0 := by
    rw [slice_length_of_le]
    · rw [sampleDouble_length]
    · rw [List.length_append, zeros_length, sampleDouble_length, List.length_append, sampleLarge_length]; omega
  have h0 : ∀ br, openBR (regionAt object 0 0) ≠ .ok br := not_accepted (byte_zero (by decide))
  obtain ⟨b, h1⟩ : ∃ b, openBR (regionAt object 0 (12 * 512)) = .ok b := by
    show ∃ b, openBR (regionAt _ 0 6144) = .ok b
    rw [hr2]
    exact ⟨_, sampleDouble_inside _ hl2⟩
  have hs1 : sectorSize (regionAt object 0 (12 * 512)) = 1024 := by
    show sectorSize (regionAt _ 0 6144) = _
    rw [hr2]
    unfold sampleDouble
    rw [List.append_assoc, List.append_assoc, List.append_assoc, sector_of_prefix]
    decide +kernel
  have hl : 49152 ≤ object.length := by
    rw [hobj, List.length_append, List.length_append (as := sampleLarge), sampleLarge_length]; omega
  refine ⟨h0, ⟨⟨sampleLarge ++ zeros (12 * 4096 - sampleLarge.length - 0)⟩, ?_⟩, ?_, ?_⟩
  · show openBR (regionAt _ 0 49152) = _
    rw [hr]
    exact sampleLarge_inside _ (by rw [zeros_length, sampleLarge_length])
  · show sectorSize (regionAt _ 0 49152) = _
    rw [hr]
    unfold sampleLarge
    rw [List.append_assoc, List.append_assoc, sector_of_prefix]
    decide +kernel
  · have hc := chooseBR_cons_error (rest := [12 * 512, 12 * 4096]) (by decide) (by omega) h0
    rw [chooseBR_cons_ok (by decide) h1] at hc
    rw [selectBR_of_choose hc (accepted_sector h1), hs1, if_pos (by decide)]

end Verif.Props.ExFAT
