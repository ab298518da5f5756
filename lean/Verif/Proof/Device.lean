/-
Lemmas about `Verif.Model.MFT.Device`.
-/
import Verif.Model.MFT.Device
import Verif.Model.Scripts.Index
namespace Verif.MFT

/-! ### Reading clusters -/

/-- Byte `p` of the file, when its cluster can be read. -/
def DeviceFile.byte (f : DeviceFile) (p : Nat) : Option UInt8 :=
  match f.readVirtualCluster (p / f.clusterSize) with
  | .error _ => none
  | .ok c => c[p % f.clusterSize]?

/-- The end of the last cluster of the file. -/
def DeviceFile.lastEnd (f : DeviceFile) : Nat := (f.fileSize + f.clusterSize - 1) / f.clusterSize * f.clusterSize

theorem DeviceFile.lastEnd_spec {f : DeviceFile} (hcs : 0 < f.clusterSize) : f.fileSize ≤ f.lastEnd ∧ f.clusterSize ∣ f.lastEnd ∧
    ∀ v, v * f.clusterSize < f.fileSize → v * f.clusterSize + f.clusterSize ≤ f.lastEnd := by
  unfold DeviceFile.lastEnd
  have h := Nat.div_add_mod (f.fileSize + f.clusterSize - 1) f.clusterSize
  have hm := Nat.mod_lt (f.fileSize + f.clusterSize - 1) hcs
  rw [Nat.mul_comm] at h
  refine ⟨by omega, Nat.dvd_mul_left _ _, fun v hv => ?_⟩
  have : v + 1 ≤ (f.fileSize + f.clusterSize - 1) / f.clusterSize := by
    rw [Nat.le_div_iff_mul_le hcs, Nat.add_mul]
    omega
  have := Nat.mul_le_mul_right f.clusterSize this
  rw [Nat.add_mul] at this
  omega

theorem div_mod_add {a b r : Nat} (hb : 0 < b) (h : a % b + r < b) : (a + r) / b = a / b ∧ (a + r) % b = a % b + r := by
  have e := Nat.div_add_mod a b
  have : a + r = b * (a / b) + (a % b + r) := by omega
  constructor
  · rw [this, Nat.mul_add_div hb, Nat.div_eq_of_lt h, Nat.add_zero]
  · rw [this, Nat.mul_add_mod, Nat.mod_eq_of_lt h]

/-- What the loop reads. -/
theorem DeviceFile.readLoop_sound {f : DeviceFile} (hcs : 0 < f.clusterSize) (size : Nat) (data : Bytes) (pos : Nat) (d : Bytes)
    (h : f.readLoop hcs size data pos = .ok d) :
    ∃ extra, d = data ++ extra ∧ extra.length = (if pos < f.fileSize then min (size - data.length) (f.lastEnd - pos) else 0) ∧
      ∀ i, i < extra.length → (extra[i]? = f.byte (pos + i) ∧ (f.byte (pos + i)).isSome) := by
  fun_induction DeviceFile.readLoop f hcs size data pos with
  | case1 data pos hs hp => cases h; exact ⟨[], by simp, by rw [if_neg (by omega)]; rfl, by simp⟩
  | case2 data pos hs hp e he => cases h
  | case3 data pos hs hp c hc hpos ih =>
    obtain ⟨extra, e1, e2, e3⟩ := ih h
    have hl := DeviceFile.readVirtualCluster_length hc
    have hm := Nat.mod_lt pos hcs
    have hsl : (slice c (pos % f.clusterSize) (pos % f.clusterSize + (size - data.length))).length =
        min (size - data.length) (f.clusterSize - pos % f.clusterSize) := by
      rw [slice_length]; omega
    have hspec := (f.lastEnd_spec hcs).2.2 (pos / f.clusterSize) (by
      have := Nat.div_add_mod pos f.clusterSize; rw [Nat.mul_comm] at this; omega)
    have hdm := Nat.div_add_mod pos f.clusterSize
    rw [Nat.mul_comm] at hdm
    refine ⟨slice c (pos % f.clusterSize) (pos % f.clusterSize + (size - data.length)) ++ extra, by rw [e1, List.append_assoc], ?_, ?_⟩
    · rw [List.length_append, e2, List.length_append, hsl, if_pos (show pos < f.fileSize by omega)]
      by_cases hfull : size - data.length ≤ f.clusterSize - pos % f.clusterSize
      · rw [Nat.min_eq_left hfull]
        split <;> omega
      · rw [Nat.min_eq_right (by omega)]
        have hle := (f.lastEnd_spec hcs).1
        obtain ⟨k, hk⟩ := (f.lastEnd_spec hcs).2.1
        by_cases hin : pos + (f.clusterSize - pos % f.clusterSize) < f.fileSize
        · rw [if_pos hin]; omega
        · rw [if_neg hin]
          have : f.lastEnd ≤ pos + (f.clusterSize - pos % f.clusterSize) := by
            have h1 : pos + (f.clusterSize - pos % f.clusterSize) = (pos / f.clusterSize + 1) * f.clusterSize := by
              rw [Nat.add_mul]; omega
            rw [h1]
            unfold DeviceFile.lastEnd
            apply Nat.mul_le_mul_right
            rw [← Nat.lt_succ_iff, Nat.div_lt_iff_lt_mul hcs, Nat.succ_mul, ← h1]
            omega
          omega
    · intro i hi
      have hget : ∀ r, pos % f.clusterSize + r < f.clusterSize → f.byte (pos + r) = c[pos % f.clusterSize + r]? := by
        intro r hr
        obtain ⟨q1, q2⟩ := div_mod_add hcs hr
        unfold DeviceFile.byte
        rw [q1, hc, q2]
      by_cases hx : i < (slice c (pos % f.clusterSize) (pos % f.clusterSize + (size - data.length))).length
      · rw [List.getElem?_append_left hx]
        rw [hsl] at hx
        rw [hget i (by omega)]
        unfold slice
        rw [List.getElem?_take, if_pos (by omega), List.getElem?_drop]
        exact ⟨rfl, by rw [List.getElem?_eq_getElem (by omega)]; rfl⟩
      · rw [List.getElem?_append_right (by omega)]
        rw [List.length_append] at hi
        have := e3 (i - (slice c (pos % f.clusterSize) (pos % f.clusterSize + (size - data.length))).length) (by omega)
        rw [show pos + (slice c (pos % f.clusterSize) (pos % f.clusterSize + (size - data.length))).length +
          (i - (slice c (pos % f.clusterSize) (pos % f.clusterSize + (size - data.length))).length) = pos + i by omega] at this
        exact this
  | case4 data pos hs =>
    cases h
    refine ⟨[], by simp, ?_, by simp⟩
    rw [show size - List.length _ = 0 by omega]
    simp

/-- When the loop succeeds. -/
theorem DeviceFile.readLoop_total {f : DeviceFile} (hcs : 0 < f.clusterSize) (size : Nat) (data : Bytes) (pos : Nat)
    (hv : ∀ v, pos / f.clusterSize ≤ v → v * f.clusterSize < f.fileSize → v * f.clusterSize < pos + (size - data.length) →
      ∃ c, f.readVirtualCluster v = .ok c) : ∃ d, f.readLoop hcs size data pos = .ok d := by
  fun_induction DeviceFile.readLoop f hcs size data pos with
  | case1 data pos hs hp => exact ⟨_, rfl⟩
  | case2 data pos hs hp e he =>
    have := Nat.div_add_mod pos f.clusterSize
    rw [Nat.mul_comm] at this
    obtain ⟨c, hc⟩ := hv (pos / f.clusterSize) (Nat.le_refl _) (by omega) (by omega)
    rw [hc] at he
    cases he
  | case3 data pos hs hp c hc hpos ih =>
    apply ih
    intro v h1 h2 h3
    refine hv v (Nat.le_trans (Nat.div_le_div_right (by omega)) h1) h2 ?_
    rw [List.length_append] at h3
    have hle : (slice c (pos % f.clusterSize) (pos % f.clusterSize + (size - data.length))).length ≤ size - data.length := by
      rw [slice_length]; omega
    omega
  | case4 data pos hs => exact ⟨_, rfl⟩

/-- What a read gives. -/
theorem DeviceFile.readAt_sound {f : DeviceFile} (p n : Nat) (d : Bytes) (h : f.readAt p n = .ok d) :
    d.length = (if p < f.fileSize then min n (f.lastEnd - p) else 0) ∧ ∀ i, i < d.length → (d[i]? = f.byte (p + i) ∧ (f.byte (p + i)).isSome) := by
  unfold DeviceFile.readAt at h
  split at h
  · rename_i h0
    cases h
    refine ⟨?_, by simp⟩
    split
    · rw [show n = 0 by omega]; simp
    · rfl
  split at h
  · rename_i hcs
    obtain ⟨extra, e1, e2, e3⟩ := DeviceFile.readLoop_sound hcs n [] p d h
    rw [List.nil_append] at e1
    subst e1
    exact ⟨e2, e3⟩
  · cases h

theorem DeviceFile.byte_cluster {f : DeviceFile} {p : Nat} (h : (f.byte p).isSome) : ∃ c, f.readVirtualCluster (p / f.clusterSize) = .ok c := by
  unfold DeviceFile.byte at h
  split at h
  · cases h
  · exact ⟨_, by assumption⟩

/-- When a read succeeds. -/
theorem DeviceFile.readAt_total {f : DeviceFile} (hcs : 0 < f.clusterSize) (p n : Nat)
    (hv : ∀ v, p / f.clusterSize ≤ v → v * f.clusterSize < f.fileSize → v * f.clusterSize < p + n → ∃ c, f.readVirtualCluster v = .ok c) :
    ∃ d, f.readAt p n = .ok d := by
  unfold DeviceFile.readAt
  split
  · exact ⟨_, rfl⟩
  exact DeviceFile.readLoop_total hcs n [] p hv

/-- The clusters that a successful read went through. -/
theorem DeviceFile.readAt_clusters {f : DeviceFile} (hcs : 0 < f.clusterSize) (p n : Nat) (d : Bytes) (h : f.readAt p n = .ok d) (hp : p < f.fileSize)
    (v : Nat) (h1 : p / f.clusterSize ≤ v) (h2 : v * f.clusterSize < f.fileSize) (h3 : v * f.clusterSize < p + n) (hn : 0 < n) :
    ∃ c, f.readVirtualCluster v = .ok c := by
  obtain ⟨s1, s2⟩ := f.readAt_sound p n d h
  rw [if_pos hp] at s1
  have hle := (f.lastEnd_spec hcs).1
  by_cases hc : p ≤ v * f.clusterSize
  · obtain ⟨-, s⟩ := s2 (v * f.clusterSize - p) (by omega)
    rw [show p + (v * f.clusterSize - p) = v * f.clusterSize by omega] at s
    have := DeviceFile.byte_cluster s
    rwa [Nat.mul_div_cancel _ hcs] at this
  · obtain ⟨-, s⟩ := s2 0 (by omega)
    have := DeviceFile.byte_cluster s
    rw [Nat.add_zero] at this
    have he : p / f.clusterSize = v := by
      apply Nat.le_antisymm h1
      rw [Nat.le_div_iff_mul_le hcs]
      omega
    rwa [he] at this

theorem DeviceFile.contents_length {f : DeviceFile} {file : Bytes} (h : f.contents = .ok file) : file.length = f.fileSize := by
  obtain ⟨s1, -⟩ := f.readAt_sound 0 f.fileSize file h
  by_cases h0 : 0 < f.fileSize
  · rw [if_pos h0] at s1
    have hcs : 0 < f.clusterSize := by
      unfold DeviceFile.contents DeviceFile.readAt at h
      rw [if_neg (by omega)] at h
      split at h
      · assumption
      · cases h
    have := (f.lastEnd_spec hcs).1
    omega
  · rw [if_neg h0] at s1; omega

/-- Parts of a file that can be read at once. -/
theorem DeviceFile.parts {f : DeviceFile} {file : Bytes} (h : f.contents = .ok file) (i n : Nat) (hi : i + n ≤ f.fileSize) :
    f.readAt i n = .ok (slice file i (i + n)) := by
  have hlen := f.contents_length h
  by_cases hn : n = 0
  · subst hn
    unfold DeviceFile.readAt
    rw [if_pos (.inl rfl)]
    refine congrArg _ (List.eq_nil_of_length_eq_zero ?_).symm
    rw [slice_length]; omega
  have hcs : 0 < f.clusterSize := by
    unfold DeviceFile.contents DeviceFile.readAt at h
    rw [if_neg (by omega)] at h
    split at h
    · assumption
    · cases h
  obtain ⟨d, hd⟩ := f.readAt_total hcs i n (fun v _ h2 _ =>
    f.readAt_clusters hcs 0 f.fileSize file h (by omega) v (by simp) h2 (by omega) (by omega))
  obtain ⟨s1, s2⟩ := f.readAt_sound i n d hd
  obtain ⟨-, t2⟩ := f.readAt_sound 0 f.fileSize file h
  have hle := (f.lastEnd_spec hcs).1
  rw [if_pos (by omega)] at s1
  rw [hd]
  refine congrArg _ (List.ext_getElem? fun k => ?_)
  unfold slice
  rw [List.getElem?_take, List.getElem?_drop]
  by_cases hk : k < d.length
  · rw [(s2 k hk).1, if_pos (by omega), (t2 (i + k) (by omega)).1, Nat.zero_add]
  · rw [List.getElem?_eq_none (by omega), if_neg (by omega)]

/-- A file of which each part can be read. -/
theorem DeviceFile.whole {f : DeviceFile} {size : Nat} (hs : 0 < size) (h : ∀ i, i * size < f.fileSize → ∃ b, f.readAt (i * size) size = .ok b) :
    ∃ file, f.contents = .ok file := by
  by_cases h0 : f.fileSize = 0
  · exact ⟨[], by unfold DeviceFile.contents DeviceFile.readAt; rw [if_pos (.inl h0)]⟩
  have hcs : 0 < f.clusterSize := by
    obtain ⟨b, hb⟩ := h 0 (by omega)
    unfold DeviceFile.readAt at hb
    rw [if_neg (by omega)] at hb
    split at hb
    · assumption
    · cases hb
  refine f.readAt_total hcs 0 f.fileSize fun v _ h2 _ => ?_
  have hdm := Nat.div_add_mod (v * f.clusterSize) size
  have hm := Nat.mod_lt (v * f.clusterSize) hs
  rw [Nat.mul_comm] at hdm
  obtain ⟨b, hb⟩ := h (v * f.clusterSize / size) (by omega)
  refine f.readAt_clusters hcs _ size b hb (by omega) v ?_ h2 (by omega) hs
  rw [← Nat.lt_succ_iff, Nat.div_lt_iff_lt_mul hcs, Nat.succ_mul]
  omega

/-! ### The first pass -/

theorem firstPassFrom_reads {read : Device} {fileSize size : Nat} (hs : ∀ j b, j * size < fileSize → read (j * size) size = .ok b → b.length = size)
    (i : Nat) (cache c : List (Nat × List Nat)) (h : firstPassFrom read fileSize size i cache = .ok c) (j : Nat) (hj : i ≤ j) (hlt : j * size < fileSize)
    (hsz : 0 < size) : ∃ b, read (j * size) size = .ok b := by
  fun_induction firstPassFrom read fileSize size i cache with
  | case1 i cache hc e he => cases h
  | case2 i cache hc buf hb hne => exact absurd (hs _ _ hc.1 hb) hne
  | case3 i cache hc buf hb hne e he hf ih =>
    by_cases hij : i = j
    · exact ⟨buf, by rw [← hij]; exact hb⟩
    · exact ih h (by omega)
  | case4 i cache hc buf hb hne e he hf => cases h
  | case5 i cache hc buf hb hne f he hf ih =>
    by_cases hij : i = j
    · exact ⟨buf, by rw [← hij]; exact hb⟩
    · exact ih h (by omega)
  | case6 i cache hc buf hb hne f he hf ih =>
    by_cases hij : i = j
    · exact ⟨buf, by rw [← hij]; exact hb⟩
    · exact ih h (by omega)
  | case7 i cache hc =>
    exfalso
    have := Nat.mul_le_mul_right size hj
    omega

theorem firstPassFrom_eq {read : Device} {file : Bytes} {size : Nat} (hd : size ∣ file.length)
    (hr : ∀ i n, i + n ≤ file.length → read i n = .ok (slice file i (i + n))) (i : Nat) (cache : List (Nat × List Nat)) (a b : Nat) :
    firstPassFrom read file.length size i cache = (firstPassLoop file size i cache a b).map (·.1) := by
  have hin : ∀ i, i * size < file.length ∧ 0 < size → i * size + size ≤ file.length := by
    intro i hc
    obtain ⟨k, hk⟩ := hd
    have : i + 1 ≤ k := by
      rw [hk, Nat.mul_comm] at hc
      exact Nat.lt_of_mul_lt_mul_left hc.1
    have := Nat.mul_le_mul_right size this
    rw [Nat.add_mul, Nat.mul_comm k] at this
    omega
  have hrd : ∀ i, i * size < file.length ∧ 0 < size → read (i * size) size = .ok (slice file (i * size) (i * size + size)) := fun i hc => hr _ _ (hin i hc)
  fun_induction firstPassLoop file size i cache a b with
  | case1 i cache a b hc buf hne =>
    have := hin i hc
    exact absurd (by rw [show buf = slice file (i * size) (i * size + size) from rfl, slice_length]; omega) hne
  | case2 i cache a b hc buf hne e he hf ih =>
    rw [firstPassFrom, if_pos hc, hrd i hc]
    dsimp only
    rw [if_neg hne, he]
    dsimp only
    rw [if_pos hf, ih]
  | case3 i cache a b hc buf hne e he hf =>
    rw [firstPassFrom, if_pos hc, hrd i hc]
    dsimp only
    rw [if_neg hne, he]
    dsimp only
    rw [if_neg hf]
    rfl
  | case4 i cache a b hc buf hne f he hf ih =>
    rw [firstPassFrom, if_pos hc, hrd i hc]
    dsimp only
    rw [if_neg hne, he]
    dsimp only
    rw [if_pos hf, ih]
  | case5 i cache a b hc buf hne f he hf ih =>
    rw [firstPassFrom, if_pos hc, hrd i hc]
    dsimp only
    rw [if_neg hne, he]
    dsimp only
    rw [if_neg hf, ih]
  | case6 i cache a b hc =>
    rw [firstPassFrom, if_neg hc]
    rfl

/-! ### The constructor -/

theorem segmentFrom_eq {read : Device} {file : Bytes} {size n : Nat} {cache : List (Nat × List Nat)}
    (hr : read (n * size) size = .ok (slice file (n * size) (n * size + size))) :
    segmentFrom read file.length size n = (Parser.mk file size cache).getSegment n := by
  unfold segmentFrom Parser.getSegment
  dsimp only
  rw [hr]

/-- Reading of a file at a place where there is nothing, or a part that is inside of the file. -/
def Agrees (read : Device) (file : Bytes) : Prop :=
  (∀ i n, i + n ≤ file.length → read i n = .ok (slice file i (i + n))) ∧ ∀ i n, file.length ≤ i → read i n = .ok []

theorem Agrees.segment {read : Device} {file : Bytes} (h : Agrees read file) {size : Nat} (hd : size ∣ file.length) (n : Nat) :
    (n * size + size ≤ file.length ∨ file.length ≤ n * size) ∧ read (n * size) size = .ok (slice file (n * size) (n * size + size)) := by
  have hc : n * size + size ≤ file.length ∨ file.length ≤ n * size := by
    obtain ⟨k, hk⟩ := hd
    rw [hk, Nat.mul_comm n, ← Nat.mul_succ]
    by_cases hnk : n < k
    · exact .inl (Nat.mul_le_mul_left _ hnk)
    · exact .inr (Nat.mul_le_mul_left _ (by omega))
  refine ⟨hc, ?_⟩
  rcases hc with hc | hc
  · exact h.1 _ _ hc
  · rw [h.2 _ _ hc]
    refine congrArg _ (List.eq_nil_of_length_eq_zero ?_).symm
    rw [slice_length]; omega

/-- The size of a segment that a file declares. -/
def declaredSize (file : Bytes) : Nat := leNat (slice file 28 32)

theorem initFrom_eq {read : Device} {file : Bytes} (h : Agrees read file) (hl : 32 ≤ file.length) (hd : declaredSize file ∣ file.length) :
    initFrom read file.length = (Parser.init file).map fun p => (p.size, p.cache) := by
  have e0 : read 0 4 = .ok (slice file 0 4) := h.1 0 4 (by omega)
  have e1 : read 28 4 = .ok (slice file 28 32) := h.1 28 4 (by omega)
  have e2 := (h.segment hd 3).2
  have e3 : segmentFrom read file.length (declaredSize file) 3 = _ := segmentFrom_eq (cache := []) e2
  have e4 := firstPassFrom_eq hd h.1 0 [] 0 0
  unfold declaredSize at e3 e4
  unfold initFrom segmentSizeFrom Parser.init
  rw [e0]
  dsimp only
  by_cases c1 : slice file 0 4 ≠ multiSectorHeaderSignatureGood
  · rw [if_pos c1, if_pos c1]; rfl
  rw [if_neg c1, if_neg c1, e1]
  dsimp only
  by_cases c2 : (slice file 28 32).length ≠ 4
  · rw [if_pos c2, if_pos c2]; rfl
  rw [if_neg c2, if_neg c2]
  by_cases c3 : leNat (slice file 28 32) ∉ fileRecordSegmentSizesSupported
  · rw [if_pos c3, if_pos c3]; rfl
  rw [if_neg c3, if_neg c3, e3]
  cases (Parser.mk file (leNat (slice file 28 32)) []).getSegment 3 with
  | error e => rfl
  | ok seg =>
    dsimp only
    cases checkVersionLoop seg.attributesGen.err seg.attributesGen.items with
    | error e => rfl
    | ok u =>
      dsimp only
      rw [e4, if_pos rfl]
      cases firstPassLoop file (leNat (slice file 28 32)) 0 [] 0 0 with
      | error e => rfl
      | ok r => rfl

theorem DeviceFile.agrees {f : DeviceFile} {file : Bytes} (h : f.contents = .ok file) : Agrees f.readAt file := by
  have hl := f.contents_length h
  refine ⟨fun i n hi => f.parts h i n (by omega), fun i n hi => ?_⟩
  unfold DeviceFile.readAt
  rw [if_pos (.inr (by omega))]

/-- The size that the constructor gives is one of those supported. -/
theorem initFrom_ok {read : Device} {fileSize size : Nat} {cache : List (Nat × List Nat)} (h : initFrom read fileSize = .ok (size, cache)) :
    segmentSizeFrom read fileSize = .ok size ∧ firstPassFrom read fileSize size 0 [] = .ok cache ∧
      ∃ raw, read 28 4 = .ok raw ∧ raw.length = 4 ∧ leNat raw = size ∧ size ∈ fileRecordSegmentSizesSupported := by
  unfold initFrom at h
  split at h
  · cases h
  rename_i s hs
  split at h
  · cases h
  rename_i c hc
  cases h
  refine ⟨hs, hc, ?_⟩
  unfold segmentSizeFrom at hs
  split at hs
  · cases hs
  split at hs
  · cases hs
  split at hs
  · cases hs
  rename_i raw hraw
  split at hs
  · cases hs
  rename_i c1
  split at hs
  · cases hs
  rename_i c2
  split at hs
  · cases hs
  split at hs
  · cases hs
  · cases hs
    exact ⟨raw, hraw, by simpa using c1, rfl, by simpa using c2⟩

theorem supported_pos {size : Nat} (h : size ∈ fileRecordSegmentSizesSupported) : 32 ≤ size := by
  unfold fileRecordSegmentSizesSupported at h
  simp at h
  omega

/-- When the constructor succeeds, the whole file can be read. -/
theorem DeviceFile.initFrom_contents {f : DeviceFile} {size : Nat} {cache : List (Nat × List Nat)} (h : initFrom f.readAt f.fileSize = .ok (size, cache))
    (hd : size ∣ f.fileSize) : ∃ file, f.contents = .ok file := by
  obtain ⟨h1, h2, raw, h3, h4, h5, h6⟩ := initFrom_ok h
  have hp := supported_pos h6
  refine f.whole (size := size) (by omega) fun i hi => ?_
  refine firstPassFrom_reads (fun j b hj hb => ?_) 0 [] cache h2 i (Nat.zero_le _) hi (by omega)
  obtain ⟨s1, -⟩ := f.readAt_sound _ _ _ hb
  rw [if_pos hj] at s1
  have hcs : 0 < f.clusterSize := by
    unfold DeviceFile.readAt at hb
    rw [if_neg (by omega)] at hb
    split at hb
    · assumption
    · cases hb
  have := (f.lastEnd_spec hcs).1
  obtain ⟨k, hk⟩ := hd
  have : (j + 1) * size ≤ f.fileSize := by
    rw [hk, Nat.mul_comm] at hj ⊢
    exact Nat.mul_le_mul_left _ (Nat.lt_of_mul_lt_mul_left hj)
  rw [Nat.add_mul] at this
  omega

/-! ### Another file object with the same bytes -/

theorem init_declared {file : Bytes} {p : Parser} (h : Parser.init file = .ok p) : 32 ≤ file.length ∧ p.size = declaredSize file := by
  unfold Parser.init at h
  split at h
  · cases h
  dsimp only at h
  split at h
  · cases h
  rename_i hl
  rw [slice_length] at hl
  refine ⟨by omega, ?_⟩
  split at h
  · cases h
  split at h
  · cases h
  split at h
  · cases h
  rw [if_pos rfl] at h
  split at h
  · cases h
  · cases h; rfl

/-- A file table that can be read and parsed is one that the constructor accepts. -/
theorem DeviceFile.initFrom_of {f : DeviceFile} {file : Bytes} {p : Parser} (h : f.contents = .ok file) (hp : Parser.init file = .ok p)
    (hd : p.size ∣ file.length) : initFrom f.readAt f.fileSize = .ok (p.size, p.cache) := by
  obtain ⟨h1, h2⟩ := init_declared hp
  rw [← f.contents_length h, initFrom_eq (f.agrees h) h1 (by rw [← h2]; exact hd), hp]
  rfl

/-- What `a` gives, `b` gives as well. -/
def Le (a b : Device) : Prop := ∀ p n x, a p n = .ok x → (x ≠ [] ∨ n = 0) → b p n = .ok x

/-- The same file on another volume. -/
def DeviceFile.on (f : DeviceFile) (b : Device) : DeviceFile := { f with volume := b }

theorem DeviceFile.readCluster_le {f : DeviceFile} {b : Device} (h : Le f.volume b) {lcn : Int} {c : Bytes} (hc : f.readCluster lcn = .ok c) :
    (f.on b).readCluster lcn = .ok c := by
  unfold DeviceFile.readCluster at hc ⊢
  dsimp only [DeviceFile.on] at hc ⊢
  split at hc
  · cases hc
  rename_i h0
  rw [if_neg h0]
  split at hc
  · cases hc
  rename_i data hdata
  split at hc
  · cases hc
  rename_i hne
  rw [h _ _ _ hdata (.inl (fun he => hne (by rw [he]; rfl)))]
  dsimp only
  rw [if_neg hne]
  exact hc

theorem DeviceFile.readVirtualCluster_le {f : DeviceFile} {b : Device} (h : Le f.volume b) {v : Nat} {c : Bytes} (hc : f.readVirtualCluster v = .ok c) :
    (f.on b).readVirtualCluster v = .ok c := by
  unfold DeviceFile.readVirtualCluster at hc ⊢
  have key : ∀ (runs : List Run) (skipped : Int), f.readVirtualClusterLoop v runs skipped = .ok c → (f.on b).readVirtualClusterLoop v runs skipped = .ok c := by
    intro runs
    induction runs with
    | nil => intro s hs; cases hs
    | cons r rest ih =>
      obtain ⟨o, n⟩ := r
      intro s hs
      unfold DeviceFile.readVirtualClusterLoop at hs ⊢
      split at hs
      · rename_i hle; rw [if_pos hle]; exact ih _ hs
      · rename_i hle
        rw [if_neg hle]
        cases o with
        | none => exact hs
        | some lcn => exact DeviceFile.readCluster_le h hs
  exact key f.dataRuns 0 hc

theorem DeviceFile.readLoop_le {f : DeviceFile} {b : Device} (h : Le f.volume b) (hcs : 0 < f.clusterSize) (hcs' : 0 < (f.on b).clusterSize) (size : Nat) (data : Bytes)
    (pos : Nat) (d : Bytes) (hd : f.readLoop hcs size data pos = .ok d) : (f.on b).readLoop hcs' size data pos = .ok d := by
  fun_induction DeviceFile.readLoop f hcs size data pos with
  | case1 data pos hs hp =>
    rw [DeviceFile.readLoop.eq_def, dif_pos hs, if_pos (show pos ≥ (f.on b).fileSize from hp)]
    exact hd
  | case2 data pos hs hp e he => cases hd
  | case3 data pos hs hp c hc hpos ih =>
    rw [DeviceFile.readLoop.eq_def, dif_pos hs, if_neg (show ¬ pos ≥ (f.on b).fileSize from hp)]
    have hc' : (f.on b).readVirtualCluster (pos / (f.on b).clusterSize) = .ok c := DeviceFile.readVirtualCluster_le h hc
    split
    · rename_i e he
      rw [hc'] at he
      cases he
    · rename_i c' hc2
      rw [hc'] at hc2
      cases hc2
      exact ih hd
  | case4 data pos hs =>
    rw [DeviceFile.readLoop.eq_def, dif_neg hs]
    exact hd

theorem DeviceFile.readAt_le {f : DeviceFile} {b : Device} (h : Le f.volume b) {p n : Nat} {d : Bytes} (hd : f.readAt p n = .ok d) :
    (f.on b).readAt p n = .ok d := by
  unfold DeviceFile.readAt at hd ⊢
  split at hd
  · rename_i h0
    rw [if_pos (show n = 0 ∨ p ≥ (f.on b).fileSize from h0)]
    exact hd
  rename_i h0
  rw [if_neg (show ¬ (n = 0 ∨ p ≥ (f.on b).fileSize) from h0)]
  split at hd
  · rename_i hcs
    rw [dif_pos (show 0 < (f.on b).clusterSize from hcs)]
    exact DeviceFile.readLoop_le h hcs hcs _ _ _ _ hd
  · cases hd

theorem DeviceFile.contents_le {f : DeviceFile} {b : Device} (h : Le f.volume b) {d : Bytes} (hd : f.contents = .ok d) : (f.on b).contents = .ok d :=
  DeviceFile.readAt_le h hd

theorem segmentFrom_le {a b : Device} (h : ∀ p n d, a p n = .ok d → b p n = .ok d) {fs size n : Nat} {x : FileRecordSegment}
    (hx : segmentFrom a fs size n = .ok x) : segmentFrom b fs size n = .ok x := by
  unfold segmentFrom at hx ⊢
  split at hx
  · cases hx
  rename_i h0
  rw [if_neg h0]
  split at hx
  · cases hx
  rename_i buf hb
  rw [h _ _ _ hb]
  exact hx

theorem segmentSizeFrom_le {a b : Device} (h : ∀ p n d, a p n = .ok d → b p n = .ok d) {fs size : Nat} (hx : segmentSizeFrom a fs = .ok size) :
    segmentSizeFrom b fs = .ok size := by
  unfold segmentSizeFrom at hx ⊢
  split at hx
  · cases hx
  rename_i sig hsig
  rw [h _ _ _ hsig]
  dsimp only
  split at hx
  · cases hx
  rename_i h0
  rw [if_neg h0]
  split at hx
  · cases hx
  rename_i raw hraw
  rw [h _ _ _ hraw]
  dsimp only
  split at hx
  · cases hx
  rename_i h1
  rw [if_neg h1]
  split at hx
  · cases hx
  rename_i h2
  rw [if_neg h2]
  split at hx
  · cases hx
  rename_i seg hseg
  rw [segmentFrom_le h hseg]
  exact hx

theorem firstPassFrom_le {a b : Device} (h : ∀ p n d, a p n = .ok d → b p n = .ok d) {fs size i : Nat} {cache c : List (Nat × List Nat)}
    (hx : firstPassFrom a fs size i cache = .ok c) : firstPassFrom b fs size i cache = .ok c := by
  fun_induction firstPassFrom a fs size i cache with
  | case1 i cache hc e he => cases hx
  | case2 i cache hc buf hb hne =>
    rw [firstPassFrom, if_pos hc, h _ _ _ hb]; dsimp only; rw [if_pos hne]; exact hx
  | case3 i cache hc buf hb hne e he hf ih =>
    rw [firstPassFrom, if_pos hc, h _ _ _ hb]; dsimp only; rw [if_neg hne, he]; dsimp only; rw [if_pos hf]; exact ih hx
  | case4 i cache hc buf hb hne e he hf => cases hx
  | case5 i cache hc buf hb hne f he hf ih =>
    rw [firstPassFrom, if_pos hc, h _ _ _ hb]; dsimp only; rw [if_neg hne, he]; dsimp only; rw [if_pos hf]; exact ih hx
  | case6 i cache hc buf hb hne f he hf ih =>
    rw [firstPassFrom, if_pos hc, h _ _ _ hb]; dsimp only; rw [if_neg hne, he]; dsimp only; rw [if_neg hf]; exact ih hx
  | case7 i cache hc => rw [firstPassFrom, if_neg hc]; exact hx

theorem initFrom_le {a b : Device} (h : ∀ p n d, a p n = .ok d → b p n = .ok d) {fs : Nat} {r : Nat × List (Nat × List Nat)} (hx : initFrom a fs = .ok r) :
    initFrom b fs = .ok r := by
  obtain ⟨size, cache⟩ := r
  obtain ⟨h1, h2, -⟩ := initFrom_ok hx
  unfold initFrom
  rw [segmentSizeFrom_le h h1]
  dsimp only
  rw [firstPassFrom_le h h2]

theorem readRunsFrom_le {a b : Device} (h : Le a b) {off cs : Nat} {runs : List Run} {value v : Bytes} (hx : readRunsFrom a off cs runs value = .ok v) :
    readRunsFrom b off cs runs value = .ok v := by
  induction runs generalizing value with
  | nil => exact hx
  | cons r rest ih =>
    obtain ⟨o, len⟩ := r
    cases o with
    | none => cases hx
    | some lcn =>
      unfold readRunsFrom at hx ⊢
      dsimp only at hx ⊢
      split at hx
      · cases hx
      rename_i h0
      rw [if_neg h0]
      split at hx
      · cases hx
      rename_i data hdata
      split at hx
      · cases hx
      rename_i hlen
      rw [h _ _ _ hdata (by
        by_cases he : data = []
        · right; rw [he] at hlen; simp only [List.length_nil, ne_eq, Decidable.not_not] at hlen; exact hlen.symm
        · exact .inl he)]
      dsimp only
      rw [if_neg hlen]
      exact ih hx

theorem findAttributeListFrom_le {a b : Device} (h : Le a b) {off cs : Nat} {err : Option Exc} {l : List AttributeRecord} {r : Option Bytes}
    (hx : findAttributeListFrom a off cs err l = .ok r) : findAttributeListFrom b off cs err l = .ok r := by
  induction l with
  | nil => exact hx
  | cons x rest ih =>
    unfold findAttributeListFrom at hx ⊢
    split at hx
    · rename_i ht
      rw [if_pos ht]
      cases x with
      | resident t n v => exact hx
      | nonresident t n mp lo hi fs runs =>
        dsimp only at hx ⊢
        cases hr : readRunsFrom a off cs runs [] with
        | error e => rw [hr] at hx; cases hx
        | ok v => rw [hr] at hx; rw [readRunsFrom_le h hr]; exact hx
    · rename_i ht
      rw [if_neg ht]
      exact ih hx

theorem DeviceFile.extendRuns_le {first : FileRecordSegment} {es : List Attributes.AttributeListEntry} {cs : List FileRecordSegment} {f g : DeviceFile}
    {b : Device} (h : Le f.volume b) (hx : DeviceFile.extendRuns first es cs f = .ok g) :
    DeviceFile.extendRuns first es cs (f.on b) = .ok (g.on b) ∧ g.volume = f.volume := by
  induction es generalizing cs f with
  | nil => cases hx; exact ⟨rfl, rfl⟩
  | cons e rest ih =>
    unfold DeviceFile.extendRuns at hx ⊢
    split at hx
    · cases hx
    rename_i size hsize
    rw [show segmentSizeFrom (f.on b).readAt (f.on b).fileSize = .ok size from segmentSizeFrom_le (fun p n d hd => DeviceFile.readAt_le h hd) hsize]
    dsimp only
    split at hx
    · cases hx
    rename_i child hchild
    rw [show segmentFrom (f.on b).readAt (f.on b).fileSize size (decodeFileRecordSegmentReference e.segmentReference).1 = .ok child from
      segmentFrom_le (fun p n d hd => DeviceFile.readAt_le h hd) hchild]
    dsimp only
    split at hx
    · cases hx
    · cases hx
    rename_i runs hruns
    exact ih (f := { f with dataRuns := runs }) h hx

theorem DeviceFile.extendByList_le {first : FileRecordSegment} {f g : DeviceFile} {value : Bytes} {b : Device} (h : Le f.volume b)
    (hx : DeviceFile.extendByList first f value = .ok g) : DeviceFile.extendByList first (f.on b) value = .ok (g.on b) ∧ g.volume = f.volume := by
  unfold DeviceFile.extendByList at hx ⊢
  split at hx
  · cases hx
  rename_i e rest he
  split at hx
  · cases hx
  rename_i h0
  rw [if_neg h0]
  exact DeviceFile.extendRuns_le h hx

/-- A successful `bind`. -/
theorem bind_ok {α β : Type} {x : Except Exc α} {f : α → Except Exc β} {b : β} (h : (x >>= f) = .ok b) : ∃ a, x = .ok a ∧ f a = .ok b := by
  cases x with
  | error e => cases h
  | ok a => exact ⟨a, rfl, h⟩

/-- A volume that can be opened is opened in the same way on another file object with the same bytes. -/
theorem openDevice_le {a b : Device} (h : Le a b) {off : Nat} {f : DeviceFile} (hf : openDevice a off = .ok f) :
    openDevice b off = .ok (f.on b) ∧ f.volume = a := by
  unfold openDevice at hf ⊢
  obtain ⟨bootBuf, e1, hf⟩ := bind_ok hf
  obtain ⟨boot, e2, hf⟩ := bind_ok hf
  obtain ⟨spc, e3, hf⟩ := bind_ok hf
  obtain ⟨bps, e4, hf⟩ := bind_ok hf
  obtain ⟨frs, e5, hf⟩ := bind_ok hf
  obtain ⟨fc, e6, hf⟩ := bind_ok hf
  obtain ⟨buf, e7, hf⟩ := bind_ok hf
  obtain ⟨first, e8, hf⟩ := bind_ok hf
  obtain ⟨list, e9, hf⟩ := bind_ok hf
  obtain ⟨runs, e10, hf⟩ := bind_ok hf
  have n1 : bootBuf ≠ [] := by
    intro he; rw [he] at e2; cases e2
  have n2 : buf ≠ [] := by
    intro he; rw [he] at e8; cases e8
  rw [h _ _ _ e1 (.inl n1)]
  show (BootSector.init bootBuf >>= _) = _ ∧ _
  rw [e2]
  show (BootSector.sectorsPerCluster boot >>= _) = _ ∧ _
  rw [e3]
  show (BootSector.bytesPerSector boot >>= _) = _ ∧ _
  rw [e4]
  show (BootSector.fileRecordSegmentSize boot >>= _) = _ ∧ _
  rw [e5]
  show (BootSector.firstMftCluster boot >>= _) = _ ∧ _
  rw [e6]
  show (b (off + fc * (spc * bps)) frs >>= _) = _ ∧ _
  rw [h _ _ _ e7 (.inl n2)]
  show (FileRecordSegment.init buf true (some 0) >>= _) = _ ∧ _
  rw [e8]
  show (findAttributeListFrom b off (spc * bps) first.attributesGen.err first.attributesGen.items >>= _) = _ ∧ _
  rw [findAttributeListFrom_le h e9]
  show ((FileRecord.mk first []).getDataRuns >>= _) = _ ∧ _
  rw [e10]
  cases runs with
  | none => cases hf
  | some runs =>
    obtain ⟨size, e11, hf⟩ := bind_ok hf
    show ((FileRecord.mk first []).getDataSize >>= _) = _ ∧ _
    rw [e11]
    cases size with
    | none => cases hf
    | some size =>
      cases list with
      | none => cases hf; exact ⟨rfl, rfl⟩
      | some value => exact DeviceFile.extendByList_le (f := ⟨a, off, spc * bps, runs, size.toNat⟩) h hf

/-! ### A volume that is a byte string -/

/-- The file on the file object of a byte string. -/
def FragmentedFile.device (f : FragmentedFile) : DeviceFile := ⟨seekRead f.volume, f.volumeOffset, f.clusterSize, f.dataRuns, f.fileSize⟩

theorem FragmentedFile.device_cluster (f : FragmentedFile) (v : Nat) : f.device.readVirtualCluster v = f.readVirtualCluster v := by
  unfold DeviceFile.readVirtualCluster FragmentedFile.readVirtualCluster
  have key : ∀ (runs : List Run) (skipped : Int), f.device.readVirtualClusterLoop v runs skipped = f.readVirtualClusterLoop v runs skipped := by
    intro runs
    induction runs with
    | nil => intro s; rfl
    | cons r rest ih =>
      obtain ⟨o, n⟩ := r
      intro s
      unfold DeviceFile.readVirtualClusterLoop FragmentedFile.readVirtualClusterLoop
      rw [ih]
      rfl
  exact key f.dataRuns 0

theorem FragmentedFile.device_loop (f : FragmentedFile) (hcs : 0 < f.clusterSize) (hcs' : 0 < f.device.clusterSize) (size : Nat) (data : Bytes) (pos : Nat) :
    f.device.readLoop hcs' size data pos = (f.readLoop hcs size data pos).1 := by
  fun_induction FragmentedFile.readLoop f hcs size data pos with
  | case1 data pos hs hp =>
    rw [DeviceFile.readLoop.eq_def, dif_pos hs, if_pos (show pos ≥ f.device.fileSize from hp)]
  | case2 data pos hs hp e he =>
    rw [DeviceFile.readLoop.eq_def, dif_pos hs, if_neg (show ¬ pos ≥ f.device.fileSize from hp)]
    have he' : f.device.readVirtualCluster (pos / f.device.clusterSize) = .error e := by rw [f.device_cluster]; exact he
    split
    · rename_i e' h; rw [he'] at h; cases h; rfl
    · rename_i c h; rw [he'] at h; cases h
  | case3 data pos hs hp c hc hpos ih =>
    rw [DeviceFile.readLoop.eq_def, dif_pos hs, if_neg (show ¬ pos ≥ f.device.fileSize from hp)]
    have hc' : f.device.readVirtualCluster (pos / f.device.clusterSize) = .ok c := by rw [f.device_cluster]; exact hc
    split
    · rename_i e' h; rw [hc'] at h; cases h
    · rename_i c' h; rw [hc'] at h; cases h; exact ih
  | case4 data pos hs => rw [DeviceFile.readLoop.eq_def, dif_neg hs]

theorem FragmentedFile.device_readAt (f : FragmentedFile) (p n : Nat) : f.device.readAt p n = f.readAt p n := by
  unfold DeviceFile.readAt FragmentedFile.readAt FragmentedFile.read FragmentedFile.effectiveSize
  dsimp only
  rw [if_neg (show ¬ ((n : Int) < 0) by omega)]
  unfold FragmentedFile.readSize
  by_cases h0 : n = 0 ∨ p ≥ f.fileSize
  · rw [if_pos (show n = 0 ∨ p ≥ f.device.fileSize from h0), if_pos (by omega)]
  rw [if_neg (show ¬ (n = 0 ∨ p ≥ f.device.fileSize) from h0), if_neg (by omega)]
  by_cases hcs : 0 < f.clusterSize
  · rw [dif_pos (show 0 < f.device.clusterSize from hcs), dif_pos hcs, DeviceFile.readLoop.eq_def,
      dif_pos (show n - ([] : Bytes).length > 0 by simp only [List.length_nil]; omega), if_neg (show ¬ p ≥ f.device.fileSize from by
        intro h; exact h0 (.inr h))]
    have he := f.device_cluster (p / f.clusterSize)
    split
    · rename_i e h
      rw [show f.readVirtualCluster (p / f.clusterSize) = .error e by rw [← he]; exact h]
    · rename_i c h
      rw [show f.readVirtualCluster (p / f.clusterSize) = .ok c by rw [← he]; exact h]
      dsimp only
      rw [← f.device_loop hcs hcs]
      simp only [List.length_nil, Nat.sub_zero, List.nil_append, Int.toNat_natCast]
      rfl
  · rw [dif_neg (show ¬ 0 < f.device.clusterSize from hcs), dif_neg hcs]

theorem FragmentedFile.device_contents (f : FragmentedFile) : f.device.contents = Scripts.contents f := f.device_readAt 0 f.fileSize

theorem FragmentedFile.device_segment (f : FragmentedFile) (size n : Nat) : segmentFrom f.device.readAt f.device.fileSize size n = f.segment size n := by
  unfold segmentFrom FragmentedFile.segment
  rw [f.device_readAt]
  rfl

theorem FragmentedFile.device_segmentSize (f : FragmentedFile) : segmentSizeFrom f.device.readAt f.device.fileSize = f.segmentSize := by
  unfold segmentSizeFrom FragmentedFile.segmentSize
  simp only [f.device_readAt, f.device_segment]
  rfl

theorem device_extendRuns {first : FileRecordSegment} (es : List Attributes.AttributeListEntry) (cs : List FileRecordSegment) (f : FragmentedFile) :
    DeviceFile.extendRuns first es cs f.device = (extendRuns first es cs f).map FragmentedFile.device := by
  induction es generalizing cs f with
  | nil => rfl
  | cons e rest ih =>
    unfold DeviceFile.extendRuns extendRuns
    rw [f.device_segmentSize]
    cases f.segmentSize with
    | error x => rfl
    | ok size =>
      dsimp only
      rw [f.device_segment]
      cases f.segment size (decodeFileRecordSegmentReference e.segmentReference).1 with
      | error x => rfl
      | ok child =>
        dsimp only
        cases (FileRecord.mk first (cs ++ [child])).getDataRuns with
        | error x => rfl
        | ok r =>
          cases r with
          | none => rfl
          | some runs => exact ih (cs ++ [child]) { f with dataRuns := runs }

theorem device_extendByList {first : FileRecordSegment} (f : FragmentedFile) (value : Bytes) :
    DeviceFile.extendByList first f.device value = (extendByList first f value).map FragmentedFile.device := by
  unfold DeviceFile.extendByList extendByList
  cases dataEntries value with
  | nil => rfl
  | cons e rest =>
    dsimp only
    split
    · rfl
    · exact device_extendRuns rest [] f

theorem device_readRuns (volume : Bytes) (off cs : Nat) (runs : List Run) (value : Bytes) :
    readRunsFrom (seekRead volume) off cs runs value = readRuns volume off cs runs value := by
  induction runs generalizing value with
  | nil => rfl
  | cons r rest ih =>
    obtain ⟨o, len⟩ := r
    cases o with
    | none => rfl
    | some lcn =>
      unfold readRunsFrom readRuns
      dsimp only
      simp only [ih]
      rfl

theorem device_findAttributeList (volume : Bytes) (off cs : Nat) (err : Option Exc) (l : List AttributeRecord) :
    findAttributeListFrom (seekRead volume) off cs err l = findAttributeList volume off cs err l := by
  induction l with
  | nil => rfl
  | cons a rest ih =>
    unfold findAttributeListFrom findAttributeList nonresidentListValue
    rw [ih]
    split
    · cases a with
      | resident t n v => rfl
      | nonresident t n mp lo hi fs runs =>
        dsimp only
        rw [device_readRuns]
        cases readRuns volume off cs runs [] <;> rfl
    · rfl

/-- The two models of opening a volume agree. -/
theorem openDevice_bytes (volume : Bytes) (off : Nat) : openDevice (seekRead volume) off = (openVolume volume off).map FragmentedFile.device := by
  unfold openDevice openVolume
  cases seekRead volume off 512 with
  | error e => rfl
  | ok bootBuf =>
  show (BootSector.init bootBuf >>= _) = Except.map _ (BootSector.init bootBuf >>= _)
  cases BootSector.init bootBuf with
  | error e => rfl
  | ok boot =>
  show (BootSector.sectorsPerCluster boot >>= _) = Except.map _ (BootSector.sectorsPerCluster boot >>= _)
  cases BootSector.sectorsPerCluster boot with
  | error e => rfl
  | ok spc =>
  show (BootSector.bytesPerSector boot >>= _) = Except.map _ (BootSector.bytesPerSector boot >>= _)
  cases BootSector.bytesPerSector boot with
  | error e => rfl
  | ok bps =>
  show (BootSector.fileRecordSegmentSize boot >>= _) = Except.map _ (BootSector.fileRecordSegmentSize boot >>= _)
  cases BootSector.fileRecordSegmentSize boot with
  | error e => rfl
  | ok frs =>
  show (BootSector.firstMftCluster boot >>= _) = Except.map _ (BootSector.firstMftCluster boot >>= _)
  cases BootSector.firstMftCluster boot with
  | error e => rfl
  | ok fc =>
  show (seekRead volume (off + fc * (spc * bps)) frs >>= _) = Except.map _ (seekRead volume (off + fc * (spc * bps)) frs >>= _)
  cases seekRead volume (off + fc * (spc * bps)) frs with
  | error e => rfl
  | ok buf =>
  show (FileRecordSegment.init buf true (some 0) >>= _) = Except.map _ (FileRecordSegment.init buf true (some 0) >>= _)
  cases FileRecordSegment.init buf true (some 0) with
  | error e => rfl
  | ok first =>
  show (findAttributeListFrom (seekRead volume) off (spc * bps) first.attributesGen.err first.attributesGen.items >>= _) =
    Except.map _ (findAttributeList volume off (spc * bps) first.attributesGen.err first.attributesGen.items >>= _)
  rw [device_findAttributeList]
  cases findAttributeList volume off (spc * bps) first.attributesGen.err first.attributesGen.items with
  | error e => rfl
  | ok list =>
  show ((FileRecord.mk first []).getDataRuns >>= _) = Except.map _ ((FileRecord.mk first []).getDataRuns >>= _)
  cases (FileRecord.mk first []).getDataRuns with
  | error e => rfl
  | ok runs =>
  cases runs with
  | none => rfl
  | some runs =>
  show ((FileRecord.mk first []).getDataSize >>= _) = Except.map _ ((FileRecord.mk first []).getDataSize >>= _)
  cases (FileRecord.mk first []).getDataSize with
  | error e => rfl
  | ok size =>
  cases size with
  | none => rfl
  | some size =>
  cases list with
  | none => rfl
  | some value => exact device_extendByList (first := first) ⟨volume, off, spc * bps, runs, size.toNat⟩ value

end Verif.MFT
