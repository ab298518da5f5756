/-
C65: an accepted exFAT boot region is consistent.  C66: checksums detect a changed byte.
-/
import Verif.Spec.ExFATRegion
import Verif.Model.ExFAT.Parser
import Verif.Props.C22_C24
namespace Verif.Props.ExFAT
open Verif.ExFAT Verif.Spec.ExFAT

/-! ### The checksums -/

theorem checksumStep_eq (s : Nat) (hs : s < 2 ^ 32) (x : UInt8) : BR.checksumStep s x = rotateAdd 31 s x := by
  rw [← rotateAdd_eq 31 s x hs]
  unfold BR.checksumStep
  have h1 : s &&& 1 = s % 2 := and_mask s 1
  dsimp only
  by_cases h : s &&& 1 > 0
  · rw [if_pos h, if_neg (by omega), Nat.or_comm]
  · rw [if_neg h, if_pos (by omega)]

theorem setChecksumStep_eq (s : Nat) (hs : s < 2 ^ 16) (x : UInt8) : setChecksumStep s x = rotateAdd 15 s x := by
  rw [← rotateAdd_eq 15 s x hs]
  unfold setChecksumStep
  have h1 : s &&& 1 = s % 2 := and_mask s 1
  dsimp only
  by_cases h : s &&& 1 > 0
  · rw [if_pos h, if_neg (by omega), Nat.or_comm]
  · rw [if_neg h, if_pos (by omega)]

theorem checksumLoop_append (a b : Bytes) (idx s : Nat) :
    BR.checksumLoop (a ++ b) idx s = BR.checksumLoop b (idx + a.length) (BR.checksumLoop a idx s) := by
  induction a generalizing idx s with
  | nil => rfl
  | cons x a ih =>
    rw [List.cons_append, BR.checksumLoop, BR.checksumLoop, List.length_cons, show idx + (a.length + 1) = idx + 1 + a.length by omega]
    split
    · exact ih ..
    · exact ih ..

theorem checksumLoop_plain (a : Bytes) (idx s : Nat) (hs : s < 2 ^ 32) (h : ∀ i, i < a.length → idx + i ∉ [106, 107, 112]) :
    BR.checksumLoop a idx s = a.foldl (rotateAdd 31) s := by
  induction a generalizing idx s with
  | nil => rfl
  | cons x a ih =>
    rw [BR.checksumLoop, if_neg (by simpa using h 0 (by simp)), checksumStep_eq s hs, List.foldl_cons]
    apply ih
    · exact rotateAdd_lt ..
    · intro i hi
      have := h (i + 1) (by simp; omega)
      rwa [show idx + 1 + i = idx + (i + 1) by omega]

theorem checksumLoop_skip (a : Bytes) (idx s : Nat) (h : ∀ i, i < a.length → idx + i ∈ [106, 107, 112]) :
    BR.checksumLoop a idx s = s := by
  induction a generalizing idx s with
  | nil => rfl
  | cons x a ih =>
    rw [BR.checksumLoop, if_pos (by simpa using h 0 (by simp))]
    apply ih
    intro i hi
    have := h (i + 1) (by simp; omega)
    rwa [show idx + 1 + i = idx + (i + 1) by omega]

theorem setChecksumLoop_append (a b : Bytes) (idx s : Nat) :
    setChecksumLoop (a ++ b) idx s = setChecksumLoop b (idx + a.length) (setChecksumLoop a idx s) := by
  induction a generalizing idx s with
  | nil => rfl
  | cons x a ih =>
    rw [List.cons_append, setChecksumLoop, setChecksumLoop, List.length_cons, show idx + (a.length + 1) = idx + 1 + a.length by omega]
    split
    · exact ih ..
    · exact ih ..

theorem setChecksumLoop_plain (a : Bytes) (idx s : Nat) (hs : s < 2 ^ 16) (h : ∀ i, i < a.length → idx + i ∉ [2, 3]) :
    setChecksumLoop a idx s = a.foldl (rotateAdd 15) s := by
  induction a generalizing idx s with
  | nil => rfl
  | cons x a ih =>
    rw [setChecksumLoop, if_neg (by simpa using h 0 (by simp)), setChecksumStep_eq s hs, List.foldl_cons]
    apply ih
    · exact rotateAdd_lt ..
    · intro i hi
      have := h (i + 1) (by simp; omega)
      rwa [show idx + 1 + i = idx + (i + 1) by omega]

theorem setChecksumLoop_skip (a : Bytes) (idx s : Nat) (h : ∀ i, i < a.length → idx + i ∈ [2, 3]) :
    setChecksumLoop a idx s = s := by
  induction a generalizing idx s with
  | nil => rfl
  | cons x a ih =>
    rw [setChecksumLoop, if_pos (by simpa using h 0 (by simp))]
    apply ih
    intro i hi
    have := h (i + 1) (by simp; omega)
    rwa [show idx + 1 + i = idx + (i + 1) by omega]

theorem rotateSum_append (w : Nat) (a b : Bytes) : rotateSum w (a ++ b) = b.foldl (rotateAdd w) (rotateSum w a) := by
  unfold rotateSum; rw [List.foldl_append]

/-- What `EntrySetChecksum` computes. -/
theorem entrySetChecksum_eq (set : Bytes) (h1 : 32 ≤ set.length) (h2 : set.length % 32 = 0) :
    entrySetChecksum set = .ok (rotateSum 15 (slice set 0 2 ++ slice set 4 set.length)) := by
  unfold entrySetChecksum
  rw [if_neg (by omega)]
  congr 1
  have e : set = slice set 0 2 ++ (slice set 2 4 ++ slice set 4 set.length) := by
    rw [slice_append_adj _ (by omega) (by omega), slice_append_adj _ (by omega) (by omega), slice_all (Nat.le_refl _)]
  have l1 : (slice set 0 2).length = 2 := by rw [slice_length]; omega
  have l2 : (slice set 2 4).length = 2 := by rw [slice_length]; omega
  conv => lhs; rw [e]
  rw [setChecksumLoop_append, setChecksumLoop_append, l1, l2, setChecksumLoop_plain (slice set 0 2) 0 0 (by omega),
    setChecksumLoop_skip (slice set 2 4), setChecksumLoop_plain (slice set 4 set.length)]
  · rw [rotateSum_append]; rfl
  · exact foldl_lt 15 _ (by omega)
  · intro i _; simp only [List.mem_cons, List.not_mem_nil, or_false]; omega
  · intro i hi; rw [l2] at hi; simp only [List.mem_cons, List.not_mem_nil, or_false]; omega
  · intro i hi; rw [l1] at hi; simp only [List.mem_cons, List.not_mem_nil, or_false]; omega

/-- What `calculate_checksum` computes. -/
theorem calculateChecksum_eq (b : BR) (hs : 9 ≤ u8 b.buf 108 ∧ u8 b.buf 108 ≤ 12) (hl : 11 * sectorSize b.buf ≤ b.buf.length) :
    b.calculateChecksum = .ok (regionChecksum b.buf) := by
  unfold BR.calculateChecksum BR.bytesPerSector
  rw [if_neg (by omega)]
  have e1 : (1 <<< u8 b.buf 108) * 11 = 11 * sectorSize b.buf := by
    unfold sectorSize; rw [Nat.shiftLeft_eq, Nat.one_mul, Nat.mul_comm]
  have h512 : 512 ≤ sectorSize b.buf := by
    unfold sectorSize
    have := Nat.pow_le_pow_right (show 0 < 2 by omega) hs.1
    omega
  simp only [bind, Except.bind, pure, Except.pure, throw, throwThe, MonadExceptOf.throw, e1]
  rw [if_neg (by omega)]
  congr 1
  unfold regionChecksum covered
  have hn : 113 ≤ 11 * sectorSize b.buf := by omega
  clear e1 h512 hs
  generalize 11 * sectorSize b.buf = n at *
  generalize b.buf = buf at *
  have e : buf.take n = slice buf 0 106 ++ (slice buf 106 108 ++ (slice buf 108 112 ++ (slice buf 112 113 ++ slice buf 113 n))) := by
    rw [slice_append_adj _ (by omega) (by omega), slice_append_adj _ (by omega) (by omega), slice_append_adj _ (by omega) (by omega), slice_append_adj _ (by omega) (by omega), slice_zero]
  have l1 : (slice buf 0 106).length = 106 := by rw [slice_length]; omega
  have l2 : (slice buf 106 108).length = 2 := by rw [slice_length]; omega
  have l3 : (slice buf 108 112).length = 4 := by rw [slice_length]; omega
  have l4 : (slice buf 112 113).length = 1 := by rw [slice_length]; omega
  rw [e, checksumLoop_append, checksumLoop_append, checksumLoop_append, checksumLoop_append, l1, l2, l3, l4,
    checksumLoop_plain (slice buf 0 106) 0 0 (by omega), checksumLoop_skip (slice buf 106 108), checksumLoop_plain (slice buf 108 112),
    checksumLoop_skip (slice buf 112 113), checksumLoop_plain (slice buf 113 n), rotateSum_append, rotateSum_append]
  · rfl
  · exact foldl_lt 31 _ (foldl_lt 31 _ (by omega))
  · intro i _; simp only [List.mem_cons, List.not_mem_nil, or_false]; omega
  · intro i hi; rw [l4] at hi; simp only [List.mem_cons, List.not_mem_nil, or_false]; omega
  · exact foldl_lt 31 _ (by omega)
  · intro i hi; rw [l3] at hi; simp only [List.mem_cons, List.not_mem_nil, or_false]; omega
  · intro i hi; rw [l2] at hi; simp only [List.mem_cons, List.not_mem_nil, or_false]; omega
  · intro i hi; rw [l1] at hi; simp only [List.mem_cons, List.not_mem_nil, or_false]; omega

/-! ### C65 -/

theorem ite_error_ok {α : Type} {c : Prop} [Decidable c] {e : Exc} {x : Except Exc α} {r : α} :
    (if c then .error e else x) = .ok r ↔ ¬ c ∧ x = .ok r := by
  by_cases hc : c
  · rw [if_pos hc]; exact ⟨(fun h => by cases h), fun h => absurd hc h.1⟩
  · rw [if_neg hc]; exact ⟨fun h => ⟨hc, h⟩, fun h => h.2⟩

theorem bind_ok {α β : Type} {x : Except Exc α} {f : α → Except Exc β} {r : β} : (x >>= f) = .ok r ↔ ∃ a, x = .ok a ∧ f a = .ok r := by
  cases x with
  | error e => exact ⟨(fun h => by cases h), (fun ⟨_, h, _⟩ => by cases h)⟩
  | ok a => exact ⟨fun h => ⟨a, rfl, h⟩, (fun ⟨_, h, h'⟩ => by cases h; exact h')⟩

theorem bytesPerSector_ok {b : BR} {n : Nat} : b.bytesPerSector = .ok n ↔ (9 ≤ u8 b.buf 108 ∧ u8 b.buf 108 ≤ 12) ∧ n = sectorSize b.buf := by
  unfold BR.bytesPerSector sectorSize
  rw [ite_error_ok, Nat.shiftLeft_eq, Nat.one_mul]
  constructor
  · rintro ⟨h, h'⟩; cases h'; exact ⟨by omega, rfl⟩
  · rintro ⟨h, rfl⟩; exact ⟨by omega, rfl⟩

theorem sectorsPerCluster_ok {b : BR} {n : Nat} : b.sectorsPerCluster = .ok n ↔ u8 b.buf 108 + u8 b.buf 109 ≤ 25 ∧ n = clusterSectors b.buf := by
  unfold BR.sectorsPerCluster clusterSectors
  rw [ite_error_ok, Nat.shiftLeft_eq, Nat.one_mul]
  constructor
  · rintro ⟨h, h'⟩; cases h'; exact ⟨by omega, rfl⟩
  · rintro ⟨h, rfl⟩; exact ⟨by omega, rfl⟩

theorem slice_four_eq (buf : Bytes) (i j : Nat) (hi : i + 4 ≤ buf.length) (hj : j + 4 ≤ buf.length) :
    slice buf i (i + 4) = slice buf j (j + 4) ↔ u32 buf i = u32 buf j := by
  have l1 := slice_length_of_le (i := i) hi
  have l2 := slice_length_of_le (i := j) hj
  constructor
  · intro h; unfold u32; rw [h]
  · intro h; exact leNat_inj (by omega) h

theorem checksum_ok {b : BR} {c : Nat} : b.checksum = .ok c ↔
    (9 ≤ u8 b.buf 108 ∧ u8 b.buf 108 ≤ 12) ∧ 11 * sectorSize b.buf + 12 ≤ b.buf.length ∧ ∀ i, i < 3 → u32 b.buf (11 * sectorSize b.buf + 4 * i) = c := by
  unfold BR.checksum
  rw [bind_ok]
  simp only [bytesPerSector_ok, throw, throwThe, MonadExceptOf.throw, pure, Except.pure, bind, Except.bind]
  constructor
  · rintro ⟨n, ⟨hs, rfl⟩, h⟩
    rw [Nat.mul_comm] at h
    generalize 11 * sectorSize b.buf = n at *
    have h := ite_error_ok.mp (show (if (slice b.buf n (n + 4) ≠ slice b.buf (n + 4) (n + 8) ∨ slice b.buf n (n + 4) ≠ slice b.buf (n + 8) (n + 12)) then .error .BootRegionException
        else unpackLE 4 (slice b.buf n (n + 4))) = Except.ok c by
      split at h
      · cases h
      · rw [if_neg (by assumption)]; exact h)
    obtain ⟨h1, h2⟩ := h
    unfold unpackLE at h2
    have e1 : slice b.buf n (n + 4) = slice b.buf (n + 4) (n + 8) := Classical.byContradiction fun h => h1 (Or.inl h)
    have e2 : slice b.buf n (n + 4) = slice b.buf (n + 8) (n + 12) := Classical.byContradiction fun h => h1 (Or.inr h)
    split at h2
    · rename_i hl
      cases h2
      refine ⟨hs, ?_, ?_⟩
      · rw [e2, slice_length] at hl; omega
      · intro i hi
        have : i = 0 ∨ i = 1 ∨ i = 2 := by omega
        rcases this with rfl | rfl | rfl
        · rfl
        · rw [e1]; rfl
        · rw [e2]; rfl
    · cases h2
  · rintro ⟨hs, hl, h⟩
    refine ⟨_, ⟨hs, rfl⟩, ?_⟩
    rw [Nat.mul_comm]
    generalize 11 * sectorSize b.buf = n at *
    have h0 := h 0 (by omega)
    have h1 := h 1 (by omega)
    have h2 := h 2 (by omega)
    have e1 : slice b.buf n (n + 4) = slice b.buf (n + 4) (n + 8) := (slice_four_eq b.buf n (n + 4) (by omega) (by omega)).mpr (by rw [← h1] at h0; exact h0)
    have e2 : slice b.buf n (n + 4) = slice b.buf (n + 8) (n + 12) := (slice_four_eq b.buf n (n + 8) (by omega) (by omega)).mpr (by rw [← h2] at h0; exact h0)
    rw [if_neg (by rintro (h | h); exact h e1; exact h e2)]
    show unpackLE 4 _ = _
    unfold unpackLE
    rw [if_pos (by rw [slice_length]; omega), ← h0]
    rfl

theorem checkChecksum_ok {b : BR} : b.checkChecksum = .ok () ↔
    (9 ≤ u8 b.buf 108 ∧ u8 b.buf 108 ≤ 12) ∧ 11 * sectorSize b.buf + 12 ≤ b.buf.length ∧
    ∀ i, i < 3 → u32 b.buf (11 * sectorSize b.buf + 4 * i) = regionChecksum b.buf := by
  unfold BR.checkChecksum
  rw [bind_ok]
  constructor
  · rintro ⟨c, hc, h⟩
    obtain ⟨h1, h2, h3⟩ := checksum_ok.mp hc
    rw [calculateChecksum_eq b h1 (by omega)] at h
    refine ⟨h1, h2, ?_⟩
    simp only [throw, throwThe, MonadExceptOf.throw, pure, Except.pure, bind, Except.bind] at h
    split at h
    · cases h
    · rename_i hne
      intro i hi
      rw [h3 i hi]
      exact Classical.byContradiction hne
  · rintro ⟨h1, h2, h3⟩
    refine ⟨regionChecksum b.buf, checksum_ok.mpr ⟨h1, h2, h3⟩, ?_⟩
    rw [calculateChecksum_eq b h1 (by omega)]
    simp only [throw, throwThe, MonadExceptOf.throw, pure, Except.pure, bind, Except.bind, ne_eq, not_true, if_false]

theorem ite_throw_ok {α β : Type} {c : Prop} [Decidable c] {e : Exc} {f : β → Except Exc α} {g : Except Exc α} {r : α} :
    (if c then ((throw e : Except Exc β) >>= f) else g) = .ok r ↔ ¬ c ∧ g = .ok r := by
  by_cases hc : c
  · rw [if_pos hc]; exact ⟨(fun h => by cases h), fun h => absurd hc h.1⟩
  · rw [if_neg hc]; exact ⟨fun h => ⟨hc, h⟩, fun h => h.2⟩

theorem ite_throw_last {α : Type} {c : Prop} [Decidable c] {e : Exc} {g : Except Exc α} {r : α} :
    (if c then (throw e : Except Exc α) else g) = .ok r ↔ ¬ c ∧ g = .ok r := by
  by_cases hc : c
  · rw [if_pos hc]; exact ⟨(fun h => by cases h), fun h => absurd hc h.1⟩
  · rw [if_neg hc]; exact ⟨fun h => ⟨hc, h⟩, fun h => h.2⟩

theorem checkNumbers_ok {b : BR} : b.checkNumbers = .ok () ↔
    (9 ≤ u8 b.buf 108 ∧ u8 b.buf 108 ≤ 12) ∧ u8 b.buf 108 + u8 b.buf 109 ≤ 25 ∧
    2 ^ 20 ≤ volumeSectors b.buf * sectorSize b.buf ∧ (tableCount b.buf = 1 ∨ tableCount b.buf = 2) ∧ (secondActive b.buf → tableCount b.buf = 2) ∧
    24 ≤ tableStart b.buf ∧ tableStart b.buf + tableCount b.buf * tableSectors b.buf ≤ heapStart b.buf ∧
    4 * (clusterCount b.buf + 2) ≤ tableSectors b.buf * sectorSize b.buf ∧ clusterCount b.buf ≤ 0xFFFFFFF5 ∧
    heapStart b.buf + clusterCount b.buf * clusterSectors b.buf ≤ volumeSectors b.buf ∧
    heapStart b.buf ≤ clusterCount b.buf * clusterSectors b.buf ∧
    (2 ≤ rootCluster b.buf ∧ rootCluster b.buf ≤ clusterCount b.buf + 1) ∧ (u8 b.buf 105 = 1 ∧ u8 b.buf 104 ≤ 99) := by
  unfold BR.checkNumbers
  have hact : b.activeFat = true ↔ secondActive b.buf := by
    unfold BR.activeFat secondActive
    rw [decide_eq_true_eq, show u16 b.buf 106 &&& 1 = u16 b.buf 106 % 2 from and_mask _ 1]
    omega
  rw [bind_ok]
  constructor
  · rintro ⟨n, hn, h⟩
    obtain ⟨hs, rfl⟩ := bytesPerSector_ok.mp hn
    simp only [ite_throw_ok, bind_ok, sectorsPerCluster_ok, BR.fileSystemRevision] at h
    obtain ⟨h1, h2, h3, m, ⟨hm, rfl⟩, h4, h5, h6, h7, h8, h9, h10, h11, h12, h13, h14, h15⟩ := h
    rw [ite_throw_last, hact] at h15
    have h16 := h15.1
    clear h15
    simp only [BR.volumeLength, BR.fatOffset, BR.fatLength, BR.clusterHeapOffset, BR.clusterCount, BR.firstClusterOfRootDirectory, BR.numberOfFats] at *
    unfold volumeSectors tableStart tableSectors heapStart Spec.ExFAT.clusterCount rootCluster tableCount
    rw [Nat.mul_comm (u8 b.buf 110)]
    refine ⟨hs, hm, by omega, by omega, ?_, by omega, by omega, by omega, by omega, by omega, by omega, by omega, by omega⟩
    intro ha
    exact Classical.byContradiction fun h => h16 ⟨ha, h⟩
  · rintro ⟨hs, hm, h1, h2, h3, h4, h5, h6, h7, h8, h9, h10, h11⟩
    refine ⟨_, bytesPerSector_ok.mpr ⟨hs, rfl⟩, ?_⟩
    simp only [ite_throw_ok, bind_ok, sectorsPerCluster_ok, BR.fileSystemRevision]
    unfold volumeSectors tableStart tableSectors heapStart Spec.ExFAT.clusterCount rootCluster tableCount at *
    rw [Nat.mul_comm (u8 b.buf 110)] at h5
    simp only [BR.volumeLength, BR.fatOffset, BR.fatLength, BR.clusterHeapOffset, BR.clusterCount, BR.firstClusterOfRootDirectory, BR.numberOfFats]
    refine ⟨by omega, by omega, by omega, _, ⟨hm, rfl⟩, by omega, by omega, by omega, by omega, by omega, by omega, by omega, by omega, by omega, by omega, by omega, ?_⟩
    refine (ite_throw_last (c := b.activeFat = true ∧ b.numberOfFats ≠ 2)).mpr ⟨?_, rfl⟩
    rintro ⟨ha, hne⟩
    exact hne (h3 (hact.mp ha))

theorem zeros_iff (buf : Bytes) (hl : 64 ≤ buf.length) : slice buf 11 64 = List.replicate 53 0 ↔ ∀ i, 11 ≤ i → i < 64 → buf[i]? = some 0 := by
  constructor
  · intro h i h1 h2
    have := slice_getElem? buf 11 64 (i - 11)
    rw [h, if_pos (by omega), show 11 + (i - 11) = i by omega] at this
    rw [← this, List.getElem?_replicate, if_pos (by omega)]
  · intro h
    apply List.ext_getElem?
    intro k
    rw [slice_getElem?, List.getElem?_replicate]
    by_cases hk : k < 53
    · rw [if_pos (by omega), if_pos hk]; exact h (11 + k) (by omega) (by omega)
    · rw [if_neg (by omega), if_neg hk]

/-- C65: exactly the consistent boot regions are accepted. -/
theorem C65_accepted (buf : Bytes) (b : BR) : openBR buf = .ok b ↔ b = ⟨buf⟩ ∧ 12 * 512 ≤ buf.length ∧ buf.length % 512 = 0 ∧ Consistent buf := by
  unfold openBR
  simp only [ite_throw_ok]
  rw [bind_ok]
  unfold BR.validate
  simp only [ite_throw_ok, bind_ok]
  simp only [BR.fsName, BR.signature, BR.mustBeZero]
  constructor
  · rintro ⟨hl, u, ⟨h1, h2, h3, u', h4, h5⟩, h6⟩
    cases h6
    have hz := (zeros_iff buf (by omega)).mp (Classical.byContradiction h3)
    obtain ⟨c1, c2, c3⟩ := checkChecksum_ok.mp h4
    obtain ⟨n1, n2, n3, n4, n5, n6, n7, n8, n9, n10, n11, n12, n13⟩ := checkNumbers_ok.mp h5
    refine ⟨rfl, by omega, by omega, ?_⟩
    exact ⟨Classical.byContradiction h1, Classical.byContradiction h2, hz, c1, n2, c2, c3, n3, n4, n5, n6, n7, n8, n9, n10, n11, n12, n13⟩
  · rintro ⟨rfl, hl1, hl2, hc⟩
    refine ⟨by omega, (), ⟨fun h => h hc.name, fun h => h hc.signature, fun h => h ((zeros_iff buf (by omega)).mpr hc.zeros), (), ?_, ?_⟩, rfl⟩
    · exact checkChecksum_ok.mpr ⟨hc.sector, hc.complete, hc.checksum⟩
    · exact checkNumbers_ok.mpr ⟨hc.sector, hc.cluster, hc.volume, hc.tables, hc.active, hc.tableAfter, hc.tableBefore, hc.tableSize, hc.count, hc.inside, hc.heap, hc.root, hc.version⟩

theorem openTable_ok {object : Bytes} {offset size last : Nat} {t : Table} : openTable object offset size last = .ok t ↔
    offset % 512 = 0 ∧ 512 ≤ size ∧ size % 512 = 0 ∧ t = ⟨object, offset, size, last⟩ := by
  unfold openTable
  split
  · rename_i h
    exact ⟨(fun h' => by cases h'), fun h' => absurd h'.1 h.2⟩
  · rename_i h
    split
    · rename_i h2
      exact ⟨(fun h' => by cases h'), fun ⟨h3, h4, h5, _⟩ => by omega⟩
    · rename_i h2
      exact ⟨(fun h' => by cases h'; exact ⟨by omega, by omega, by omega, rfl⟩), fun ⟨_, _, _, h6⟩ => by rw [h6]⟩

/-- C65: the places that follow from an accepted boot region: the active table lies between the two boot regions of
twelve sectors and the clusters, and every cluster with a valid number lies inside of the volume. -/
theorem C65_layout (region object : Bytes) (offset : Nat) (size : Option Nat) (br : BR) (hbr : openBR region = .ok br) :
    (offset % 512 = 0 → ∃ heap, openHeap object offset size br = .ok heap) ∧
    ∀ heap, openHeap object offset size br = .ok heap →
      heap.table.offset = offset + (tableStart region + if secondActive region then tableSectors region else 0) * sectorSize region ∧
      heap.table.size = tableSectors region * sectorSize region ∧
      offset + 24 * sectorSize region ≤ heap.table.offset ∧ heap.table.offset + heap.table.size ≤ offset + heap.dataAreaOffset ∧
      heap.dataAreaOffset = heapStart region * sectorSize region ∧ heap.clusterSize = clusterSectors region * sectorSize region ∧
      heap.lastValidCluster = clusterCount region + 1 ∧ heap.table.lastValidCluster = clusterCount region + 1 ∧
      heap.table.object = object ∧ heap.object = object ∧ heap.offset = offset ∧ heap.size = size ∧
      ∀ cluster, 2 ≤ cluster → cluster ≤ heap.lastValidCluster →
        heap.dataAreaOffset + (cluster - 2) * heap.clusterSize + heap.clusterSize ≤ volumeSectors region * sectorSize region := by
  obtain ⟨rfl, hlen, _, hc⟩ := (C65_accepted region br).mp hbr
  have hact : (BR.mk region).activeFat = true ↔ secondActive region := by
    unfold BR.activeFat secondActive
    rw [decide_eq_true_eq, show u16 region 106 &&& 1 = u16 region 106 % 2 from and_mask _ 1]
    omega
  have hb : (BR.mk region).bytesPerSector = .ok (sectorSize region) := bytesPerSector_ok.mpr ⟨hc.sector, rfl⟩
  have hs : (BR.mk region).sectorsPerCluster = .ok (clusterSectors region) := sectorsPerCluster_ok.mpr ⟨hc.cluster, rfl⟩
  have hopen : ∀ x : Nat, openHeap object offset size ⟨region⟩ =
      (openTable object (offset + ((BR.mk region).fatOffset * sectorSize region + (if (BR.mk region).activeFat then (BR.mk region).fatLength * sectorSize region else 0)))
        ((BR.mk region).fatLength * sectorSize region) ((BR.mk region).clusterCount + 1)).bind fun table =>
        .ok ⟨object, offset, size, table, sectorSize region * clusterSectors region, (BR.mk region).clusterHeapOffset * sectorSize region, (BR.mk region).clusterCount + 1⟩ := by
    intro _
    unfold openHeap
    rw [hb, hs]
    rfl
  have h512 : 512 ∣ sectorSize region := by
    unfold sectorSize
    exact Nat.pow_dvd_pow 2 (m := 9) hc.sector.1
  have hact2 : (if (BR.mk region).activeFat then (BR.mk region).fatLength * sectorSize region else 0) = (if secondActive region then tableSectors region else 0) * sectorSize region := by
    by_cases ha : secondActive region
    · rw [if_pos (hact.mpr ha), if_pos ha]; rfl
    · rw [if_neg (fun h => ha (hact.mp h)), if_neg ha, Nat.zero_mul]
  have hpos : 512 ≤ sectorSize region := Nat.le_of_dvd (Nat.two_pow_pos _) h512
  constructor
  · intro ho
    rw [hopen 0, hact2]
    rw [← Nat.add_mul]
    have h1 : 512 ∣ (BR.mk region).fatLength * sectorSize region := Nat.dvd_trans h512 (Nat.dvd_mul_left _ _)
    have h2 := hc.tableSize
    have h3 : tableSectors region ≠ 0 := by
      intro h; rw [h] at h2; omega
    have h4 : 1 * sectorSize region ≤ tableSectors region * sectorSize region := Nat.mul_le_mul_right _ (by omega)
    have h5 : (BR.mk region).fatLength = tableSectors region := rfl
    have h6 : 512 ∣ ((BR.mk region).fatOffset + if secondActive region then tableSectors region else 0) * sectorSize region := Nat.dvd_trans h512 (Nat.dvd_mul_left _ _)
    rw [h5] at h1 ⊢
    rw [openTable_ok.mpr ⟨by omega, by omega, by omega, rfl⟩]
    exact ⟨_, rfl⟩
  · intro heap hh
    rw [hopen 0, hact2] at hh
    rw [← Nat.add_mul] at hh
    obtain ⟨t, ht, hh⟩ := bind_ok.mp hh
    obtain ⟨_, _, _, rfl⟩ := openTable_ok.mp ht
    cases hh
    have hcount : tableSectors region + (if secondActive region then tableSectors region else 0) ≤ tableCount region * tableSectors region := by
      by_cases ha : secondActive region
      · rw [if_pos ha, hc.active ha]; omega
      · rw [if_neg ha]
        rcases hc.tables with h | h <;> rw [h] <;> omega
    refine ⟨rfl, rfl, ?_, ?_, rfl, ?_, rfl, rfl, rfl, rfl, rfl, rfl, ?_⟩
    · apply Nat.add_le_add_left
      apply Nat.mul_le_mul_right
      exact Nat.le_trans hc.tableAfter (Nat.le_add_right _ _)
    · dsimp only
      rw [Nat.add_assoc]
      apply Nat.add_le_add_left
      rw [← Nat.add_mul]
      apply Nat.mul_le_mul_right
      have h1 := hc.tableBefore
      show tableStart region + _ + tableSectors region ≤ heapStart region
      omega
    · exact Nat.mul_comm _ _
    · intro c h1 h2
      dsimp only at h2 ⊢
      have h3 : (BR.mk region).clusterCount = Spec.ExFAT.clusterCount region := rfl
      rw [h3] at h2
      rw [Nat.add_assoc, ← Nat.succ_mul, Nat.mul_comm (sectorSize region), ← Nat.mul_assoc, ← Nat.add_mul]
      apply Nat.mul_le_mul_right
      refine Nat.le_trans ?_ hc.inside
      apply Nat.add_le_add_left
      apply Nat.mul_le_mul_right
      omega

/-- C65: hence the entry of a valid cluster is in the table: it is read (when the file is not cut short there). -/
theorem C65_lookup (region object : Bytes) (offset : Nat) (size : Option Nat) (br : BR) (heap : Heap)
    (hbr : openBR region = .ok br) (hh : openHeap object offset size br = .ok heap) (cluster : Nat) (hc : cluster ≤ heap.lastValidCluster)
    (hend : heap.table.offset + heap.table.size ≤ object.length) (hbig : heap.table.offset + heap.table.size ≤ 2 ^ 63) :
    heap.table.offset + 4 * cluster + 4 ≤ heap.table.offset + heap.table.size ∧
    heap.table.getElement cluster = .ok (u32 object (heap.table.offset + 4 * cluster)) := by
  obtain ⟨rfl, _, _, hcons⟩ := (C65_accepted region br).mp hbr
  obtain ⟨_, h2, _, _, _, _, h7, h8, h9, _⟩ := (C65_layout region object offset size _ hbr).2 heap hh
  have h10 := hcons.tableSize
  rw [h7] at hc
  refine ⟨by rw [h2]; omega, ?_⟩
  unfold Table.getElement
  rw [if_neg (by rw [h2, h8]; omega), h9]
  unfold seekRead
  rw [if_neg (by omega)]
  dsimp only
  rw [if_neg (by rw [slice_length]; omega), Nat.mul_comm cluster 4]
  rfl

theorem getElem?_of_eq_except {a b : Bytes} {i : Nat} (heq : ∀ j, j ≠ i → a[j]? = b[j]?) {lo hi : Nat} (h : i < lo ∨ hi ≤ i) :
    slice a lo hi = slice b lo hi := by
  apply List.ext_getElem?
  intro k
  rw [slice_getElem?, slice_getElem?]
  split
  · exact heq _ (by omega)
  · rfl

/-- `a` and `b` differ in the byte with the index `i`, and only there. -/
structure DifferOnlyAt (a b : Bytes) (i : Nat) : Prop where
  same : ∀ j, j ≠ i → a[j]? = b[j]?
  inside : i < a.length
  length : a.length = b.length
  differ : a[i]? ≠ b[i]?

theorem slice_differ {a b : Bytes} {i lo hi : Nat} (h : DifferOnlyAt a b i) (h1 : lo ≤ i) (h2 : i < hi) :
    ∃ pre post x y, x ≠ y ∧ slice a lo hi = pre ++ x :: post ∧ slice b lo hi = pre ++ y :: post := by
  refine ⟨slice a lo i, slice a (i + 1) hi, a[i]'h.inside, b[i]'(h.length ▸ h.inside), ?_, ?_, ?_⟩
  · intro he
    apply h.differ
    rw [List.getElem?_eq_getElem h.inside, List.getElem?_eq_getElem (h.length ▸ h.inside), he]
  · have := h.inside
    apply List.ext_getElem?
    intro k
    rw [slice_getElem?, List.getElem?_append, slice_length, List.getElem?_cons, slice_getElem?, slice_getElem?]
    have hm : min (i - lo) (a.length - lo) = i - lo := by omega
    rw [hm]
    by_cases c1 : k < i - lo
    · rw [if_pos (by omega), if_pos c1, if_pos (by omega)]
    · rw [if_neg c1]
      by_cases c2 : k - (i - lo) = 0
      · rw [if_pos c2, if_pos (by omega), show lo + k = i by omega, List.getElem?_eq_getElem h.inside]
      · rw [if_neg c2]
        by_cases c3 : k < hi - lo
        · rw [if_pos c3, if_pos (by omega)]; congr 1; omega
        · rw [if_neg c3, if_neg (by omega)]
  · have := h.inside
    have hl := h.length
    rw [getElem?_of_eq_except h.same (lo := lo) (hi := i) (Or.inr (Nat.le_refl _)), getElem?_of_eq_except h.same (lo := i + 1) (hi := hi) (Or.inl (by omega))]
    apply List.ext_getElem?
    intro k
    rw [slice_getElem?, List.getElem?_append, slice_length, List.getElem?_cons, slice_getElem?, slice_getElem?]
    have hm : min (i - lo) (b.length - lo) = i - lo := by omega
    rw [hm]
    by_cases c1 : k < i - lo
    · rw [if_pos (by omega), if_pos c1, if_pos (by omega)]
    · rw [if_neg c1]
      by_cases c2 : k - (i - lo) = 0
      · rw [if_pos c2, if_pos (by omega), show lo + k = i by omega, List.getElem?_eq_getElem (by omega)]
      · rw [if_neg c2]
        by_cases c3 : k < hi - lo
        · rw [if_pos c3, if_pos (by omega)]; congr 1; omega
        · rw [if_neg c3, if_neg (by omega)]

/-- C66: the sum over a set of directory entries changes when one byte of the set does (without the sum itself, in the
bytes 2 and 3). -/
theorem C66_entry_set (a b : Bytes) (i : Nat) (h : DifferOnlyAt a b i) (hi : i ≠ 2 ∧ i ≠ 3)
    (h32 : 32 ≤ a.length ∧ a.length % 32 = 0) : ∃ x y, entrySetChecksum a = .ok x ∧ entrySetChecksum b = .ok y ∧ x ≠ y := by
  refine ⟨_, _, entrySetChecksum_eq _ h32.1 h32.2, entrySetChecksum_eq _ (h.length ▸ h32.1) (h.length ▸ h32.2), ?_⟩
  rw [← h.length]
  have hin := h.inside
  by_cases h2 : i < 2
  · obtain ⟨pre, post, x, y, hne, ha, hb⟩ := slice_differ h (lo := 0) (hi := 2) (by omega) h2
    rw [ha, hb, getElem?_of_eq_except h.same (lo := 4) (hi := a.length) (Or.inl (by omega)), List.append_assoc, List.append_assoc, List.cons_append, List.cons_append]
    exact rotateSum_detects (w := 15) (by decide) _ _ hne
  · obtain ⟨pre, post, x, y, hne, ha, hb⟩ := slice_differ h (lo := 4) (hi := a.length) (by omega) hin
    rw [ha, hb, getElem?_of_eq_except h.same (lo := 0) (hi := 2) (Or.inr (by omega)), ← List.append_assoc, ← List.append_assoc]
    exact rotateSum_detects (w := 15) (by decide) _ _ hne

theorem regionChecksum_differ (a b : Bytes) (i : Nat) (h : DifferOnlyAt a b i) (hcov : i ≠ 106 ∧ i ≠ 107 ∧ i ≠ 112) (hs : i ≠ 108) (hin : i < 11 * sectorSize a) :
    regionChecksum a ≠ regionChecksum b := by
  have hsec : sectorSize b = sectorSize a := by
    unfold sectorSize
    rw [show u8 b 108 = u8 a 108 by unfold u8; rw [getElem?_of_eq_except h.same (by omega)]]
  unfold regionChecksum covered
  rw [hsec]
  by_cases h1 : i < 106
  · obtain ⟨pre, post, x, y, hne, ha, hb⟩ := slice_differ h (lo := 0) (hi := 106) (by omega) h1
    rw [ha, hb, getElem?_of_eq_except h.same (lo := 108) (hi := 112) (by omega), getElem?_of_eq_except h.same (lo := 113) (hi := 11 * sectorSize a) (by omega)]
    simp only [List.append_assoc, List.cons_append]
    exact rotateSum_detects (w := 31) (by decide) _ _ hne
  · by_cases h2 : i < 112
    · obtain ⟨pre, post, x, y, hne, ha, hb⟩ := slice_differ h (lo := 108) (hi := 112) (by omega) h2
      rw [ha, hb, getElem?_of_eq_except h.same (lo := 0) (hi := 106) (by omega), getElem?_of_eq_except h.same (lo := 113) (hi := 11 * sectorSize a) (by omega)]
      simp only [List.append_assoc, List.cons_append]
      rw [← List.append_assoc, ← List.append_assoc (slice b 0 106)]
      exact rotateSum_detects (w := 31) (by decide) _ _ hne
    · obtain ⟨pre, post, x, y, hne, ha, hb⟩ := slice_differ h (lo := 113) (hi := 11 * sectorSize a) (by omega) hin
      rw [ha, hb, getElem?_of_eq_except h.same (lo := 0) (hi := 106) (by omega), getElem?_of_eq_except h.same (lo := 108) (hi := 112) (by omega)]
      rw [← List.append_assoc, ← List.append_assoc]
      exact rotateSum_detects (w := 31) (by decide) _ _ hne

/-- C66, for boot regions, without the byte 108 (the sector size, which says how many bytes are under the checksum):
one changed byte under the checksum of an accepted boot region changes the checksum, and the region is refused. -/
theorem C66_boot_region_partial (a b : Bytes) (i : Nat) (h : DifferOnlyAt a b i) (hcov : i ≠ 106 ∧ i ≠ 107 ∧ i ≠ 112) (hs : i ≠ 108)
    (hin : i < 11 * sectorSize a) (br : BR) (hok : openBR a = .ok br) :
    regionChecksum a ≠ regionChecksum b ∧ ∀ br', openBR b ≠ .ok br' := by
  have hne := regionChecksum_differ a b i h hcov hs hin
  refine ⟨hne, ?_⟩
  intro br' hb
  obtain ⟨_, _, _, ca⟩ := (C65_accepted a br).mp hok
  obtain ⟨_, _, _, cb⟩ := (C65_accepted b br').mp hb
  have hsec : sectorSize b = sectorSize a := by
    unfold sectorSize
    rw [show u8 b 108 = u8 a 108 by unfold u8; rw [getElem?_of_eq_except h.same (by omega)]]
  apply hne
  rw [← ca.checksum 0 (by omega), ← cb.checksum 0 (by omega), hsec]
  unfold u32
  rw [getElem?_of_eq_except h.same (by omega)]

end Verif.Props.ExFAT
