/-
Property C123: the exceptions of opening an exFAT volume.
-/
import Verif.Props.C71_C74
import Verif.Props.C61
namespace Verif.Props.ExFAT
open Verif.ExFAT Verif.Spec Verif.Spec.ExFAT
open Verif.FAT (slots)

/-! ### Directories -/

theorem fileSet_total {slot : Bytes} {rest : List Bytes} (hs : slot.length = 32) (hr : ∀ s ∈ rest, s.length = 32) : ∃ r, fileSet slot rest = .ok r := by
  have hflat : ∀ l : List Bytes, (∀ s ∈ l, s.length = 32) → l.flatten.length % 32 = 0 := by
    intro l
    induction l with
    | nil => intro _; rfl
    | cons a l ih =>
      intro h
      have h1 := h a (List.mem_cons_self ..)
      have h2 := ih (fun s hm => h s (List.mem_cons_of_mem _ hm))
      rw [List.flatten_cons, List.length_append]
      omega
  have hsum : entrySetChecksum (slot ++ (rest.take (u8 slot 1)).flatten) = .ok _ := entrySetChecksum_eq _ (by rw [List.length_append]; omega) (by
    have := hflat (rest.take (u8 slot 1)) (fun s hm => hr s (List.mem_of_mem_take hm))
    rw [List.length_append]
    omega)
  unfold fileSet
  dsimp only
  split
  · exact ⟨_, rfl⟩
  split
  · exact ⟨_, rfl⟩
  rw [hsum]
  split
  · rename_i h
    split at h <;> cases h
  · exact ⟨_, rfl⟩
  · split
    · exact ⟨_, rfl⟩
    · split <;> exact ⟨_, rfl⟩

/-- The only exception of a generator is DirectoryEntriesException. -/
def OnlyEntries {α : Type} (g : Gen α) : Prop := ∀ e, g.err = some e → e = .DirectoryEntriesException

theorem only_done {α : Type} : OnlyEntries (.done : Gen α) := (fun _ h => by cases h)
theorem only_fail {α : Type} : OnlyEntries (.fail .DirectoryEntriesException : Gen α) := (fun _ h => by cases h; rfl)
theorem only_ite {α : Type} {c : Prop} [Decidable c] {g k : Gen α} (hg : OnlyEntries g) (hk : OnlyEntries k) : OnlyEntries (if c then g else k) := by
  split
  · exact hg
  · exact hk

theorem labelOf_error {slot : Bytes} {e : Exc} (he : labelOf slot = .error e) : e = .DirectoryEntriesException := by
  unfold labelOf at he
  split at he
  · cases he; rfl
  split at he
  · split at he
    · cases he; rfl
    · cases he
  · cases he

theorem scan_errors (isRoot : Bool) (l : List Bytes) (hl : ∀ s ∈ l, s.length = 32) (skip labels bitmaps : Nat) :
    OnlyEntries (scan isRoot l skip labels bitmaps) := by
  induction l generalizing skip labels bitmaps with
  | nil => rw [scan]; exact only_done
  | cons slot rest ih =>
    have ih := ih (fun s hm => hl s (List.mem_cons_of_mem _ hm))
    cases skip with
    | succ n => rw [scan]; exact ih _ _ _
    | zero =>
      rw [scan]
      refine only_ite only_done (only_ite (only_ite only_fail only_done) (only_ite ?_ (only_ite (only_ite ?_ (ih _ _ _)) (ih _ _ _))))
      · refine only_ite only_done (only_ite (ih _ _ _) (only_ite (ih _ _ _) (only_ite (ih _ _ _) (only_ite ?_ (only_ite (only_ite only_fail ?_)
          (only_ite (only_ite only_fail (ih _ _ _)) (ih _ _ _)))))))
        · obtain ⟨r, hr⟩ := fileSet_total (hl slot (List.mem_cons_self ..)) (fun s hm => hl s (List.mem_cons_of_mem _ hm))
          rw [hr]
          cases r with
          | none => exact ih _ _ _
          | some x => exact ih _ _ _
        · cases hb : labelOf slot with
          | error e => dsimp only; rw [labelOf_error hb]; exact only_fail
          | ok items => exact ih _ _ _
      · cases buildName (orphanParts (u8 slot 0) 17 (slot :: rest)) none with
        | none => exact ih _ _ _
        | some name => exact ih _ _ _

/-- C123: listing a directory, of any bytes, ends normally or with DirectoryEntriesException. -/
theorem C123_directory (isRoot : Bool) (buf : Bytes) (e : Exc) (h : (listDirectory isRoot buf).err = some e) : e = .DirectoryEntriesException := by
  unfold listDirectory at h
  split at h
  · rename_i e' he
    unfold openDirectory at he
    split at he
    · cases he; cases h; rfl
    · cases he
  · rename_i ho
    unfold openDirectory at ho
    split at ho
    · cases ho
    · exact scan_errors isRoot (slots buf) (Verif.Props.slots_length (by omega)) 0 0 0 e h

/-! ### Chains -/

theorem openTable_error {object : Bytes} {offset size last : Nat} {e : Exc} (h : openTable object offset size last = .error e) :
    e = .FileAllocationTableException := by
  unfold openTable at h
  split at h
  · cases h; rfl
  split at h
  · cases h; rfl
  · cases h

theorem getElement_error {t : Table} (hbig : t.offset + t.size ≤ 2 ^ 63) {n : Nat} {e : Exc} (h : t.getElement n = .error e) :
    e = .FileAllocationTableException := by
  unfold Table.getElement at h
  split at h
  · cases h; rfl
  · unfold seekRead at h
    rw [if_neg (by omega)] at h
    dsimp only at h
    split at h
    · cases h; rfl
    · cases h

theorem chain_error {t : Table} (hbig : t.offset + t.size ≤ 2 ^ 63) {n : Nat} {e : Exc} (h : t.chain n = .error e) : e = .FileAllocationTableException := by
  rcases (C68_error t n e).mp h with h | ⟨_, _, clusters, last, _, _, h⟩
  · exact h.2
  · exact getElement_error hbig h

theorem readClusters_error {v : Heap} (hbig : ∀ c, c ≤ v.lastValidCluster → v.offset + v.dataAreaOffset + (c - 2) * v.clusterSize < 2 ^ 63)
    (hsize : v.clusterSize < 2 ^ 63) (l : List (Option Nat)) (hl : ∀ c, some c ∈ l → c ≤ v.lastValidCluster) (fileSize : Option Nat) (n : Nat) (e : Exc)
    (h : v.readClusters fileSize l n = .error e) : e = .ValueError := by
  induction l generalizing n with
  | nil => cases h
  | cons a l ih =>
    rw [Heap.readClusters] at h
    split at h
    · cases h
    split at h
    · rename_i e' he
      cases h
      cases a with
      | none => cases he
      | some c =>
        have := hbig c (hl c (List.mem_cons_self ..))
        unfold Heap.readCluster at he
        dsimp only at he
        rw [if_neg (by omega)] at he
        split at he
        · cases he; rfl
        unfold seekRead at he
        rw [if_neg (by omega)] at he
        dsimp only at he
        split at he
        · cases he; rfl
        · cases he
    · split at h
      · rename_i e' he
        cases h
        exact ih (fun c hc => hl c (List.mem_cons_of_mem _ hc)) _ he
      · cases h

/-! ### Boot regions -/

/-- A table of any size and a cluster of any number can be addressed when the volume does not start beyond 2^61. -/
theorem heap_bounds {region object : Bytes} {offset : Nat} {size : Option Nat} {br : BR} {heap : Heap} (ho : offset ≤ 2 ^ 61) (hbr : openBR region = .ok br)
    (hh : openHeap object offset size br = .ok heap) :
    heap.table.offset + heap.table.size ≤ 2 ^ 63 ∧ heap.clusterSize < 2 ^ 63 ∧ heap.table.lastValidCluster = heap.lastValidCluster ∧
    ∀ c, c ≤ heap.lastValidCluster → heap.offset + heap.dataAreaOffset + (c - 2) * heap.clusterSize < 2 ^ 63 := by
  obtain ⟨_, h2, _, h4, h5, h6, h7, h8, _, _, h11, _, _⟩ := (C65_layout region object offset size br hbr).2 heap hh
  obtain ⟨-, -, -, hcons⟩ := (C65_accepted region br).mp hbr
  have hs : sectorSize region ≤ 2 ^ 12 := Nat.pow_le_pow_right (n := 2) (by decide) hcons.sector.2
  have hc : clusterSectors region * sectorSize region ≤ 2 ^ 25 := by
    unfold clusterSectors sectorSize
    rw [← Nat.pow_add]
    exact Nat.pow_le_pow_right (n := 2) (by decide) (by have := hcons.cluster; omega)
  have hd : heapStart region * sectorSize region ≤ 2 ^ 32 * 2 ^ 12 := Nat.mul_le_mul (Nat.le_of_lt (u32_lt _ _)) hs
  rw [← h5] at hd
  rw [← h6] at hc
  refine ⟨by omega, by omega, by omega, fun c hle => ?_⟩
  have h9 := hcons.count
  have h10 : (c - 2) * heap.clusterSize ≤ 2 ^ 32 * 2 ^ 25 := Nat.mul_le_mul (by omega) hc
  omega

theorem readChain_error {v : Heap} (ht : v.table.offset + v.table.size ≤ 2 ^ 63) (hl : v.table.lastValidCluster = v.lastValidCluster)
    (hbig : ∀ c, c ≤ v.lastValidCluster → v.offset + v.dataAreaOffset + (c - 2) * v.clusterSize < 2 ^ 63)
    (hsize : v.clusterSize < 2 ^ 63) {c : Nat} {e : Exc} (h : v.readChain c none false = .error e) :
    e = .FileAllocationTableException ∨ e = .ValueError := by
  unfold Heap.readChain at h
  split at h
  · rename_i e' he
    cases h
    unfold Heap.clustersOf at he
    rw [if_pos (by decide)] at he
    exact .inl (chain_error ht he)
  · rename_i l he
    unfold Heap.clustersOf at he
    rw [if_pos (by decide)] at he
    split at h
    · rename_i e' hr
      cases h
      exact .inr (readClusters_error hbig hsize l (fun x hx => hl ▸ ((C68_clusters _ _ _ he).1 x hx).1) _ _ _ hr)
    · cases h

theorem chooseBR_total {object : Bytes} {offset : Nat} (l : List Nat) (hl : ∀ p ∈ l, offset + p + 12 * 4096 ≤ object.length ∧ offset + p < 2 ^ 63) :
    ∃ r, chooseBR object offset l = .ok r ∧ ∀ br p, r = some (br, p) → ∃ region, openBR region = .ok br := by
  induction l with
  | nil => exact ⟨none, rfl, (fun _ _ h => by cases h)⟩
  | cons p l ih =>
    have hp := hl p (List.mem_cons_self ..)
    cases hb : openBR (regionAt object offset p) with
    | ok br =>
      refine ⟨_, chooseBR_cons_ok hp.2 hb, ?_⟩
      intro br' p' h
      cases h
      exact ⟨_, hb⟩
    | error e =>
      rw [chooseBR_cons_error hp.2 hp.1 (fun br h => by rw [hb] at h; cases h)]
      exact ih (fun q hq => hl q (List.mem_cons_of_mem _ hq))

theorem selectBR_error {object : Bytes} {offset : Nat} (hlen : offset + 24 * 4096 ≤ object.length) (hbig : offset ≤ 2 ^ 61) {e : Exc}
    (h : selectBR object offset = .error e) : e = .BootRegionException := by
  obtain ⟨r, hr, hok⟩ := chooseBR_total (object := object) (offset := offset) [0, 12 * 512, 12 * 4096] (by
    intro p hp
    simp only [List.mem_cons, List.not_mem_nil, or_false] at hp
    omega)
  cases r with
  | none =>
    unfold selectBR at h
    rw [hr] at h
    cases h
    rfl
  | some r =>
    obtain ⟨br, p⟩ := r
    obtain ⟨region, ho⟩ := hok br p rfl
    rw [selectBR_of_choose hr (accepted_sector ho)] at h
    split at h
    · cases h; rfl
    · cases h

theorem selectBR_opened {object : Bytes} {offset : Nat} (hbig : offset ≤ 2 ^ 61) {br : BR} {b : Bool}
    (h : selectBR object offset = .ok (br, b)) : ∃ region, openBR region = .ok br := by
  rcases C67_used object offset (by omega) br b h with ⟨_, h⟩ | ⟨_, _, n, _, h, _⟩
  · exact ⟨_, h⟩
  · exact ⟨_, h⟩

/-- The exceptions that say that a volume is not an exFAT volume that can be used. -/
def exfatRefusals : List Exc :=
  [.ValueError, .BootRegionException, .FileAllocationTableException, .DirectoryEntriesException, .FileSystemException]

/-- C123, the part of the claim that holds: when the two boot regions are there, for the largest sectors (24 sectors of 4096 bytes), and the
volume does not begin beyond 2^61, whatever its bytes are, it is opened or refused with one of the exceptions that are meant for that. -/
theorem C123_declared_partial (object : Bytes) (offset : Nat) (size : Option Nat) (hlen : offset + 24 * 4096 ≤ object.length) (hbig : offset ≤ 2 ^ 61)
    (e : Exc) (h : openVolume object offset size = .error e) : e ∈ exfatRefusals := by
  unfold openVolume at h
  split at h
  · cases h; decide
  cases hs : selectBR object offset with
  | error e' =>
    rw [hs] at h
    cases h
    rw [selectBR_error hlen hbig hs]
    decide
  | ok r =>
    obtain ⟨br, b⟩ := r
    rw [hs] at h
    obtain ⟨region, hbr⟩ := selectBR_opened hbig hs
    change (openHeap object offset size br >>= fun heap => findBitmap heap br >>= fun bitmap => pure _) = _ at h
    cases hh : openHeap object offset size br with
    | error e' =>
      rw [hh] at h
      cases h
      have hc := (C65_accepted region br).mp hbr
      obtain ⟨rfl, -, -, hc⟩ := hc
      unfold openHeap at hh
      rw [bytesPerSector_ok.mpr ⟨hc.sector, rfl⟩, sectorsPerCluster_ok.mpr ⟨hc.cluster, rfl⟩] at hh
      simp only [bind, Except.bind] at hh
      split at hh
      · rename_i e'' ht
        cases hh
        rw [openTable_error ht]
        decide
      · cases hh
    | ok heap =>
      rw [hh] at h
      change (findBitmap heap br >>= fun bitmap => pure _) = _ at h
      obtain ⟨b1, b2, b3, b4⟩ := heap_bounds hbig hbr hh
      have hread : ∀ c e', heap.readChain c none false = .error e' → e' ∈ exfatRefusals := by
        intro c e' hr
        rcases readChain_error b1 b3 b4 b2 hr with h | h <;> rw [h] <;> decide
      cases hb : findBitmap heap br with
      | ok bitmap => rw [hb] at h; cases h
      | error e' =>
        rw [hb] at h
        cases h
        unfold findBitmap at hb
        cases hr : heap.readChain br.firstClusterOfRootDirectory none false with
        | error e' => rw [hr] at hb; cases hb; exact hread _ _ hr
        | ok buf =>
          rw [hr] at hb
          change (openDirectory buf >>= fun _ => _) = _ at hb
          unfold openDirectory at hb
          split at hb
          · cases hb; decide
          · rename_i hlen'
            change (match firstBitmap br.activeFat (entries true buf).items with
              | some firstCluster => heap.readChain firstCluster none false >>= fun b => pure (Bitmap.mk b heap.lastValidCluster)
              | none => match (entries true buf).err with | some e => throw e | none => throw Exc.FileSystemException) = _ at hb
            split at hb
            · rename_i c _
              cases hr2 : heap.readChain c none false with
              | error e' => rw [hr2] at hb; cases hb; exact hread _ _ hr2
              | ok b => rw [hr2] at hb; cases hb
            · split at hb
              · rename_i e' he
                cases hb
                rw [scan_errors true (slots buf) (Verif.Props.slots_length (by omega)) 0 0 0 _ he]
                decide
              · cases hb; decide

/-! ### Images that are cut -/

theorem take_slice (b : Bytes) {n i j : Nat} (h : j ≤ n) : slice (b.take n) i j = slice b i j := by
  have : b.take n = slice b 0 n := by unfold slice; rw [List.drop_zero, Nat.sub_zero]
  rw [this, slice_slice _ _ _ _ _ (by omega), Nat.zero_add, Nat.zero_add]

/-- C123: of a boot region that is accepted, and whose sectors have more than 512 bytes, the first bytes (at least twelve times 512 of them, and not
the twelfth sector) are refused with `struct.error`. -/
theorem C123_cut_region (region : Bytes) (br : BR) (h : openBR region = .ok br) (n : Nat) (h1 : 12 * 512 ≤ n) (h2 : n % 512 = 0)
    (h3 : n ≤ 11 * sectorSize region) : openBR (region.take n) = .error .StructError := by
  obtain ⟨rfl, hlen, hmod, hc⟩ := (C65_accepted region br).mp h
  have hcomplete := hc.complete
  have hl : (region.take n).length = n := by rw [List.length_take]; omega
  have h108 : u8 (region.take n) 108 = u8 region 108 := by
    unfold u8
    rw [take_slice region (by omega)]
  have hb : (BR.mk (region.take n)).bytesPerSector = .ok (sectorSize region) := by
    refine bytesPerSector_ok.mpr ⟨?_, ?_⟩
    · show 9 ≤ u8 (region.take n) 108 ∧ u8 (region.take n) 108 ≤ 12
      rw [h108]
      exact hc.sector
    · unfold sectorSize
      show 2 ^ u8 region 108 = 2 ^ u8 (region.take n) 108
      rw [h108]
  have hcheck : (BR.mk (region.take n)).checkChecksum = .error .StructError := by
    have hempty : ∀ i j, sectorSize region * 11 ≤ i → slice (region.take n) i j = [] := by
      intro i j hi
      apply List.eq_nil_of_length_eq_zero
      rw [slice_length, hl]
      omega
    unfold BR.checkChecksum BR.checksum
    rw [hb]
    simp only [bind, Except.bind]
    rw [hempty _ _ (Nat.le_refl _), hempty _ _ (by omega), hempty _ _ (by omega), if_neg (by simp)]
    rfl
  have hok : openBR region = .ok ⟨region⟩ := h
  unfold openBR at hok ⊢
  rw [if_neg (by omega)] at hok
  rw [if_neg (by rw [hl]; omega)]
  unfold BR.validate at hok ⊢
  unfold BR.fsName BR.signature BR.mustBeZero at *
  simp only [ite_throw_ok, bind_ok] at hok
  obtain ⟨_, ⟨g1, g2, g3, -⟩, -⟩ := hok
  dsimp only at g1 g2 g3 ⊢
  rw [take_slice region (by omega), take_slice region (by omega), take_slice region (by omega), if_neg g1, if_neg g2, if_neg g3, hcheck]
  rfl

/-- C123 fails as stated: an image of a good volume with large sectors that is cut after its first sectors gives `struct.error`, and the backup
boot region is not looked at. -/
theorem C123_cut (object : Bytes) (br : BR) (h : openBR (slice object 0 (12 * 4096)) = .ok br) (n : Nat) (h1 : 12 * 512 ≤ n) (h2 : n % 512 = 0)
    (h3 : n ≤ 11 * sectorSize object) : openVolume (object.take n) 0 none = .error .StructError := by
  have h108 : u8 (slice object 0 (12 * 4096)) 108 = u8 object 108 := by
    unfold u8
    rw [slice_slice _ _ _ _ _ (by omega)]
  have hs : sectorSize (slice object 0 (12 * 4096)) = sectorSize object := by unfold sectorSize; rw [h108]
  have hc := (C65_accepted _ br).mp h
  have h4096 : sectorSize object ≤ 4096 := by
    rw [← hs]
    exact Nat.pow_le_pow_right (n := 2) (j := 12) (by decide) hc.2.2.2.sector.2
  have hcut := C123_cut_region _ br h n h1 h2 (by rw [hs]; exact h3)
  have he : regionAt (object.take n) 0 0 = (slice object 0 (12 * 4096)).take n := by
    unfold regionAt slice
    rw [List.drop_zero, List.drop_zero, List.take_take, List.take_take, Nat.min_comm]
  have hchoose : chooseBR (object.take n) 0 [0, 12 * 512, 12 * 4096] = .error .StructError := by
    rw [chooseBR, tryBR_eq (by decide), he, hcut]
    rfl
  unfold openVolume selectBR
  rw [hchoose]
  rfl

/-- A boot region with sectors of 1024 bytes, and its first 6144 bytes. -/
example : openBR (sampleDouble 10) = .ok ⟨sampleDouble 10⟩ ∧ 12 * 512 ≤ 6144 ∧ 6144 % 512 = 0 ∧ 6144 ≤ 11 * sectorSize (sampleDouble 10) :=
  ⟨sampleDouble_10, by decide, by decide, by decide +kernel⟩

end Verif.Props.ExFAT
