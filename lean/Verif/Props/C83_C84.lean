/-
Properties C83 and C84: the first record of the `$MFT` file of a volume, and the exceptions of opening a volume
(dfir_ntfs/MFT.py:1494-1584).
-/
import Verif.Props.C82
import Verif.Props.C16_C20
import Verif.Props.C05_C10
import Verif.Props.C22_C24
import Verif.Proof.SampleVolume
namespace Verif.Props
open Verif.MFT Verif.Spec.FileRecord Verif.Spec.FragmentedFile Verif.Spec.FileSystem Verif.Attributes

/-! ### C83 -/

/-- A volume whose boot sector says that the `$MFT` file begins at the cluster 1, while the file record there says
that it is at the cluster 5 (which does not exist). -/
def elsewhereVolume : Bytes := mkBoot 1 ++ mkSegment 0 1 1 0 0 [mkExtent 0x80 0 1 1024 [0x11, 2, 5, 0]]

theorem elsewhereVolume_opens : openVolume elsewhereVolume 0 = .ok ⟨elsewhereVolume, 0, 512, [(some 5, 2)], 1024⟩ := by
  have h : (openVolume elsewhereVolume 0).map (fun f => (f.clusterSize, f.dataRuns, f.fileSize)) =
    .ok (512, [(some 5, 2)], 1024) := by decide +kernel
  cases ho : openVolume elsewhereVolume 0 with
  | error e => rw [ho] at h; cases h
  | ok f =>
    rw [ho] at h
    obtain ⟨_, _, _, _, _, _, _, m⟩ := C82_open_sound _ _ _ ho
    have h1 := m.volume_eq
    have h2 := m.offset_eq
    obtain ⟨v, o, c, r, s⟩ := f
    dsimp only at *
    subst h1 h2
    cases h
    rfl

/-- C83 is false of the code: the place of the `$MFT` file in the boot sector and the one in its own file record are
never compared, so the record 0 of the file that opening gives need not be the one that the boot sector points to: here
there is none at all. -/
theorem C83_first_record_elsewhere : ∃ (volume : Bytes) (f : FragmentedFile), openVolume volume 0 = .ok f ∧
    ∀ size s, ¬ SegmentAt f size 0 s := by
  refine ⟨_, _, elsewhereVolume_opens, ?_⟩
  rintro size s ⟨buf, ⟨h1, h2⟩, h3⟩
  have h4 := init_length h3
  have h5 := h2 0 (by omega)
  rw [List.getElem?_eq_getElem (by omega)] at h5
  have h6 : fileByte ⟨elsewhereVolume, 0, 512, [(some 5, 2)], 1024⟩ (0 * size + 0) = none := by
    rw [Nat.zero_mul]; decide +kernel
  rw [h6] at h5
  cases h5

/-- C83 (partial).  The full statement: the record 0 of the opened file is the segment at the place that the boot
sector records.  Proved for files whose first data run begins at that place (and covers the segment, which is inside the
volume).  Missing: files
whose record 0 gives another place, which are opened too (`C83_first_record_elsewhere`). -/
theorem C83_first_record_partial (volume : Bytes) (off : Nat) (f : FragmentedFile) (boot : Bytes) (spc bps frs cluster : Nat)
    (first : FileRecordSegment) (children : List FileRecordSegment) (m : IsMft volume off f boot spc bps frs cluster first children)
    (n : Int) (rest : List Run) (hruns : f.dataRuns = (some (cluster : Int), n) :: rest) (hn : frs ≤ n.toNat * f.clusterSize)
    (hsize : frs ≤ allocatedEnd f) (hvol : off + cluster * f.clusterSize + frs ≤ volume.length) : SegmentAt f frs 0 first := by
  obtain ⟨hspc, -, hbps, -⟩ := C50_geometry_partial _ _ m.boot_ok _ _ m.spc_eq m.bps_eq
  have hcs : 0 < f.clusterSize := by rw [m.size_eq]; exact Nat.mul_pos hspc hbps
  refine ⟨_, ⟨?_, ?_⟩, m.first_eq⟩
  · rw [Nat.zero_mul, Nat.sub_zero, Nat.min_eq_left hsize, slice_length]
    omega
  · intro i hi
    rw [Nat.zero_mul, Nat.sub_zero, Nat.min_eq_left hsize] at hi
    obtain ⟨v, o, c, r, s⟩ := f
    dsimp only at *
    subst hruns
    rw [fileByte_cons (fs' := s) hcs, Nat.zero_mul, Nat.zero_add, if_pos (by omega), slice_getElem?, if_pos (by omega)]
    dsimp only [volumeByte]
    rw [if_neg (by rw [← Int.natCast_mul]; omega)]
    have h1 := m.volume_eq
    have h2 := m.offset_eq
    dsimp only at h1 h2
    subst h1 h2
    congr 1

/-- The `$MFT` file of the sample volume: two extents, the second one in the segment 4, which is in the first. -/
theorem sampleVolume_opens : openVolume (sampleVolume [0x11, 10, 1, 0] sampleEntries) 0 =
    .ok ⟨sampleVolume [0x11, 10, 1, 0] sampleEntries, 0, 512, [(some 1, 10), (some 12, 2)], 6144⟩ := by
  have h : (openVolume (sampleVolume [0x11, 10, 1, 0] sampleEntries) 0).map (fun f => (f.clusterSize, f.dataRuns, f.fileSize)) =
    .ok (512, [(some 1, 10), (some 12, 2)], 6144) := by decide +kernel
  cases ho : openVolume (sampleVolume [0x11, 10, 1, 0] sampleEntries) 0 with
  | error e => rw [ho] at h; cases h
  | ok f =>
    rw [ho] at h
    obtain ⟨_, _, _, _, _, _, _, m⟩ := C82_open_sound _ _ _ ho
    have h1 := m.volume_eq
    have h2 := m.offset_eq
    obtain ⟨v, o, c, r, s⟩ := f
    dsimp only at *
    subst h1 h2
    cases h
    rfl

/-- C82 and C83 are not vacuous: the hypotheses of both hold of the sample volume. -/
example : ∃ boot spc bps frs cluster first children,
    IsMft (sampleVolume [0x11, 10, 1, 0] sampleEntries) 0
      ⟨sampleVolume [0x11, 10, 1, 0] sampleEntries, 0, 512, [(some 1, 10), (some 12, 2)], 6144⟩ boot spc bps frs cluster first children :=
  C82_open_sound _ _ _ sampleVolume_opens
example : BootSector.fileRecordSegmentSize (mkBoot 1) = .ok 1024 ∧ BootSector.firstMftCluster (mkBoot 1) = .ok 1 ∧
    slice (sampleVolume [0x11, 10, 1, 0] sampleEntries) 0 512 = mkBoot 1 ∧
    1024 ≤ allocatedEnd ⟨sampleVolume [0x11, 10, 1, 0] sampleEntries, 0, 512, [(some 1, 10), (some 12, 2)], 6144⟩ ∧
    0 + 1 * 512 + 1024 ≤ (sampleVolume [0x11, 10, 1, 0] sampleEntries).length := by decide +kernel

/-! ### C84 -/

/-- What opening a volume is expected to raise: an exception of the boot sector or of the master file table. -/
def documented : List Exc := .BootSectorException :: mftExceptions

/-- What it can raise besides that. -/
def escaping : List Exc := [.OverflowError, .ValueError, .AttributeError, .StructError]

theorem attributesGen_err {s : FileRecordSegment} {buf : Bytes} {n : Option Nat} (h : FileRecordSegment.init buf true n = .ok s)
    {e : Exc} (he : s.attributesGen.err = some e) : e ∈ mftExceptions := by
  have h1 : s.attributes.err = some e := he
  rcases (C08_attributes_in_bounds buf n s h).2.2 with h2 | h2 | h2
  · rw [h2] at h1; cases h1
  · rw [h2] at h1; cases h1; decide
  · rw [h2] at h1; cases h1; decide

/-- A segment that was read. -/
def Read (s : FileRecordSegment) : Prop := ∃ buf n, FileRecordSegment.init buf true n = .ok s

theorem attributes_err {ss : List FileRecordSegment} (hs : ∀ s ∈ ss, Read s) {e : Exc}
    (h : (ss.foldr (fun f rest => f.attributesGen.append rest) (Gen.done : Gen AttributeRecord)).err = some e) : e ∈ mftExceptions := by
  induction ss with
  | nil => cases h
  | cons x xs ih =>
    rw [List.foldr_cons] at h
    generalize hu : xs.foldr (fun f rest => f.attributesGen.append rest) (Gen.done : Gen AttributeRecord) = u at *
    unfold Gen.append at h
    cases hx : x.attributesGen.err with
    | some e' =>
      rw [hx] at h
      cases h
      obtain ⟨_, _, hr⟩ := hs x (by simp)
      exact attributesGen_err hr hx
    | none =>
      rw [hx] at h
      exact ih (fun s h => hs s (by simp [h])) h

theorem getDataRuns_err {fr : FileRecord} (hs : ∀ s ∈ fr.base :: fr.children, Read s) {e : Exc} (h : fr.getDataRuns = .error e) :
    e ∈ mftExceptions := by
  cases hno : fr.attributes.err with
  | some e' =>
    unfold FileRecord.getDataRuns at h
    rw [hno] at h
    cases h
    exact attributes_err hs hno
  | none =>
    rw [getDataRuns_eq _ _ _ hno] at h
    split at h
    · cases h
    rename_i hne
    generalize hz : assembleLoop _ _ _ _ = z at h
    cases z with
    | ok r => cases h
    | error e' =>
      cases h
      rw [assembleLoop_error _ _ _ _ _ (.inr ⟨rfl, ?_⟩) hz]
      · decide
      · intro hc
        have := sortBy_perm (fun e => (Extent.lowestVcn e : Int)) (extentsOf fr.attributes.items (wantedName none) (wantedType false))
        rw [hc] at this
        exact hne this.symm.eq_nil

theorem getDataSize_err {fr : FileRecord} (hs : ∀ s ∈ fr.base :: fr.children, Read s) {e : Exc} (h : fr.getDataSize = .error e) :
    e ∈ mftExceptions := by
  unfold FileRecord.getDataSize at h
  split at h
  · cases h
  split at h
  · rename_i hno
    cases h
    exact attributes_err hs hno
  · cases h

theorem readRuns_err {volume : Bytes} {off cs : Nat} {runs : List Run} {acc : Bytes} {e : Exc}
    (h : readRuns volume off cs runs acc = .error e) : e ∈ documented ++ escaping := by
  induction runs generalizing acc with
  | nil => cases h
  | cons r rest ih =>
    obtain ⟨o, n⟩ := r
    cases o with
    | none => cases h; decide
    | some lcn =>
      unfold readRuns at h
      dsimp only at h
      split at h
      · cases h; decide
      split at h
      · rename_i hs; cases h; rw [error_of_seekRead hs]; decide
      split at h
      · cases h; decide
      · exact ih h

theorem findAttributeList_err {volume : Bytes} {off cs : Nat} {s : FileRecordSegment} (hs : Read s) {e : Exc}
    (h : findAttributeList volume off cs s.attributesGen.err s.attributesGen.items = .error e) :
    e ∈ documented ∨ (e ∈ escaping ∧ ∃ a ∈ s.attributesGen.items, a.typeCode = 0x20) := by
  obtain ⟨_, _, hr⟩ := hs
  have herr : ∀ e, s.attributesGen.err = some e → e ∈ mftExceptions := fun e => attributesGen_err hr
  generalize s.attributesGen.err = err at *
  generalize s.attributesGen.items = items at *
  induction items with
  | nil =>
    unfold findAttributeList at h
    split at h
    · cases h; exact .inl (List.mem_cons_of_mem _ (herr _ rfl))
    · cases h
  | cons a rest ih =>
    unfold findAttributeList at h
    split at h
    · rename_i ht
      split at h
      · rename_i runs
        unfold nonresidentListValue at h
        cases hr : readRuns volume off cs runs [] with
        | ok v => rw [hr] at h; cases h
        | error e' =>
          rw [hr] at h
          cases h
          rcases List.mem_append.1 (readRuns_err hr) with h | h
          · exact .inl h
          · exact .inr ⟨h, _, by simp, ht⟩
      · cases h
    · rcases ih h with h | ⟨h, a', ha, ht⟩
      · exact .inl h
      · exact .inr ⟨h, a', by simp [ha], ht⟩

theorem readVirtualCluster_err {f : FragmentedFile} {vcn : Nat} {e : Exc} (h : f.readVirtualCluster vcn = .error e) :
    e ∈ documented ++ escaping := by
  unfold FragmentedFile.readVirtualCluster at h
  generalize (0 : Int) = skipped at h
  generalize f.dataRuns = runs at h
  induction runs generalizing skipped with
  | nil => cases h; decide
  | cons r rest ih =>
    obtain ⟨o, s⟩ := r
    unfold FragmentedFile.readVirtualClusterLoop at h
    split at h
    · exact ih _ h
    · split at h
      · cases h
      · unfold FragmentedFile.readCluster at h
        dsimp only at h
        split at h
        · cases h; decide
        split at h
        · rename_i hs; cases h; rw [error_of_seekRead hs]; decide
        split at h
        · cases h; decide
        split at h
        · cases h; decide
        · cases h

theorem readLoop_err {f : FragmentedFile} (hcs : 0 < f.clusterSize) (size : Nat) (data : Bytes) (pos : Nat) {e : Exc} {pos' : Nat}
    (h : f.readLoop hcs size data pos = (.error e, pos')) : e ∈ documented ++ escaping := by
  fun_induction FragmentedFile.readLoop f hcs size data pos with
  | case1 => cases h
  | case2 data pos hs hp e' he => cases h; exact readVirtualCluster_err he
  | case3 data pos hs hp c hc hpos ih => exact ih h
  | case4 => cases h

theorem readAt_err {f : FragmentedFile} (hcs : 0 < f.clusterSize) {off n : Nat} {e : Exc} (h : f.readAt off n = .error e) :
    e ∈ documented ++ escaping := by
  unfold FragmentedFile.readAt FragmentedFile.read FragmentedFile.readSize at h
  split at h
  · cases h
  split at h
  · rename_i he; cases h; exact readVirtualCluster_err he
  · generalize hr : FragmentedFile.readLoop f hcs _ _ _ = r at h
    obtain ⟨x, p⟩ := r
    dsimp only at h
    subst h
    exact readLoop_err hcs _ _ _ hr

theorem mft_escaping {e : Exc} (h : e ∈ mftExceptions) : e ∈ documented ++ escaping :=
  List.mem_append_left _ (List.mem_cons_of_mem _ h)

theorem segment_err {f : FragmentedFile} (hcs : 0 < f.clusterSize) {size n : Nat} {e : Exc} (h : f.segment size n = .error e) :
    e ∈ documented ++ escaping := by
  unfold FragmentedFile.segment at h
  split at h
  · cases h; decide
  split at h
  · rename_i he; cases h; exact readAt_err hcs he
  · exact mft_escaping (mem_mftExceptions (isMftExc_init h))

theorem segment_read {f : FragmentedFile} {size n : Nat} {s : FileRecordSegment} (h : f.segment size n = .ok s) : Read s := by
  unfold FragmentedFile.segment at h
  split at h
  · cases h
  split at h
  · cases h
  · exact ⟨_, _, h⟩

theorem checkVersionLoop_err {err : Option Exc} (herr : ∀ e, err = some e → e ∈ mftExceptions) {items : List AttributeRecord} {e : Exc}
    (h : checkVersionLoop err items = .error e) : e ∈ documented ++ escaping := by
  induction items with
  | nil =>
    unfold checkVersionLoop at h
    split at h
    · cases h; exact mft_escaping (herr _ rfl)
    · cases h; decide
  | cons a rest ih =>
    cases a with
    | nonresident => exact ih h
    | resident t n v =>
      unfold checkVersionLoop at h
      split at h
      · cases h; decide
      split at h
      · split at h
        · rename_i he; cases h; rw [(unpackLE_error he).2]; decide
        split at h
        · rename_i he; cases h; rw [(unpackLE_error he).2]; decide
        split at h
        · cases h; decide
        split at h
        · cases h; decide
        · cases h
      · exact ih h

theorem segmentSize_err {f : FragmentedFile} (hcs : 0 < f.clusterSize) {e : Exc} (h : f.segmentSize = .error e) :
    e ∈ documented ++ escaping := by
  unfold FragmentedFile.segmentSize at h
  split at h
  · rename_i he; cases h; exact readAt_err hcs he
  split at h
  · cases h; decide
  split at h
  · rename_i he; cases h; exact readAt_err hcs he
  split at h
  · cases h; decide
  split at h
  · cases h; decide
  split at h
  · rename_i he; cases h; exact segment_err hcs he
  rename_i vs hvs
  split at h
  · rename_i he
    cases h
    obtain ⟨_, _, hr⟩ := segment_read hvs
    exact checkVersionLoop_err (fun e => attributesGen_err hr) he
  · cases h

theorem extendRuns_err {first : FileRecordSegment} (hfirst : Read first) {es : List AttributeListEntry} {children : List FileRecordSegment}
    (hch : ∀ s ∈ children, Read s) {f : FragmentedFile} (hcs : 0 < f.clusterSize)
    (hf : (FileRecord.mk first children).getDataRuns = .ok (some f.dataRuns)) {e : Exc}
    (h : extendRuns first es children f = .error e) : e ∈ documented ++ escaping := by
  induction es generalizing children f with
  | nil => cases h
  | cons x rest ih =>
    unfold extendRuns at h
    split at h
    · rename_i he; cases h; exact segmentSize_err hcs he
    split at h
    · rename_i he; cases h; exact segment_err hcs he
    rename_i child hc
    have hch' : ∀ s ∈ children ++ [child], Read s := by
      intro s hs
      rcases List.mem_append.1 hs with hs | hs
      · exact hch s hs
      · rw [List.mem_singleton.1 hs]; exact segment_read hc
    have hall : ∀ s ∈ first :: (children ++ [child]), Read s := by
      intro s hs
      rcases List.mem_cons.1 hs with rfl | hs
      · exact hfirst
      · exact hch' s hs
    split at h
    · rename_i he
      cases h
      exact mft_escaping (getDataRuns_err (fr := ⟨first, children ++ [child]⟩) hall he)
    · rename_i hnone
      exfalso
      obtain ⟨exts, hp, hne, -⟩ := C11_runs_sound _ _ _ _ hf
      have hno : (FileRecord.mk first (children ++ [child])).attributes.err = none := by
        unfold FileRecord.getDataRuns at hnone
        split at hnone
        · cases hnone
        · assumption
      obtain ⟨more, hm⟩ := attributes_append hno
      have h0 := (C11_none_iff _ none false hno).1 hnone
      rw [hm] at h0
      unfold extentsOf at h0 hp
      rw [List.filterMap_append] at h0
      have h1 := (List.append_eq_nil_iff.1 h0).1
      rw [h1] at hp
      exact hne hp.eq_nil
    · rename_i runs hr
      exact ih (f := { f with dataRuns := runs }) hch' hcs hr h

theorem bind_eq_error {α β : Type} {x : Except Exc α} {g : α → Except Exc β} {e : Exc} (h : (x >>= g) = .error e) :
    x = .error e ∨ ∃ a, x = .ok a ∧ g a = .error e := by
  cases x with
  | error e' => cases h; exact .inl rfl
  | ok a => exact .inr ⟨a, rfl, h⟩

theorem sectorsPerCluster_err {b : Bytes} {e : Exc} (h : BootSector.sectorsPerCluster b = .error e) : e = .BootSectorException := by
  unfold BootSector.sectorsPerCluster at h
  dsimp only at h
  split at h
  · cases h; rfl
  split at h <;> cases h

theorem bytesPerSector_err {b : Bytes} {e : Exc} (h : BootSector.bytesPerSector b = .error e) : e = .BootSectorException := by
  unfold BootSector.bytesPerSector at h
  split at h
  · cases h; rfl
  dsimp only at h
  split at h
  · cases h; rfl
  · cases h

/-- C84 (partial).  The full statement: opening a volume raises nothing but exceptions of the boot sector and of the
master file table.  Proved: it raises one of those or one of four others, and only one of those if the first segment
has no attribute list and the places in the boot sector can be sought to.  Missing: the cases of the four others, which do
occur (`C84_overflow_error`, `C84_value_error`, `C84_attribute_error`, `C84_struct_error`). -/
theorem C84_exceptions_partial (volume : Bytes) (off : Nat) (e : Exc) (h : openVolume volume off = .error e) :
    e ∈ documented ∨ (e ∈ escaping ∧
      ((off ≥ 2 ^ 63 ∨ ∃ spc bps frs cluster, BootSector.sectorsPerCluster (slice volume off (off + 512)) = .ok spc ∧
          BootSector.bytesPerSector (slice volume off (off + 512)) = .ok bps ∧
          BootSector.fileRecordSegmentSize (slice volume off (off + 512)) = .ok frs ∧
          BootSector.firstMftCluster (slice volume off (off + 512)) = .ok cluster ∧
          (off + cluster * (spc * bps) ≥ 2 ^ 63 ∨ frs ≥ 2 ^ 63)) ∨
        ∃ buf first, FileRecordSegment.init buf true (some 0) = .ok first ∧ ∃ a ∈ first.attributesGen.items, a.typeCode = 0x20)) := by
  unfold openVolume at h
  rcases bind_eq_error h with h | ⟨boot, h1, k1⟩
  · rw [error_of_seekRead h]
    refine .inr ⟨by decide, .inl (.inl ?_)⟩
    unfold seekRead at h
    by_cases hc : off ≥ 2 ^ 63 ∨ 512 ≥ 2 ^ 63
    · omega
    · rw [if_neg hc] at h; cases h
  rcases bind_eq_error k1 with h | ⟨boot', h2, k2⟩
  · left
    unfold BootSector.init at h
    split at h
    · cases h; decide
    split at h
    · cases h; decide
    · cases h
  clear k1
  obtain ⟨hb, -, -⟩ := of_seekRead h1
  obtain ⟨rfl, -⟩ := (C50_accepts_iff _ _).1 h2
  rcases bind_eq_error k2 with h | ⟨spc, h3, k3⟩
  · rw [sectorsPerCluster_err h]; exact .inl (by decide)
  rcases bind_eq_error k3 with h | ⟨bps, h4, k4⟩
  · rw [bytesPerSector_err h]; exact .inl (by decide)
  dsimp only at k4
  rcases bind_eq_error k4 with h | ⟨frs, h5, k5⟩
  · rw [(C50_record_sizes _ _ h2).2.2.1 _ h]; exact .inl (by decide)
  rcases bind_eq_error k5 with h | ⟨cluster, h6, k6⟩
  · unfold BootSector.firstMftCluster BootSector.nonzero64 at h
    split at h
    · cases h; exact .inl (by decide)
    · cases h
  rcases bind_eq_error k6 with h | ⟨buf, h7, k7⟩
  · rw [error_of_seekRead h]
    refine .inr ⟨by decide, .inl (.inr ⟨spc, bps, frs, cluster, hb ▸ h3, hb ▸ h4, hb ▸ h5, hb ▸ h6, ?_⟩)⟩
    unfold seekRead at h
    by_cases hc : off + cluster * (spc * bps) ≥ 2 ^ 63 ∨ frs ≥ 2 ^ 63
    · exact hc
    · rw [if_neg hc] at h; cases h
  rcases bind_eq_error k7 with h | ⟨first, h8, k8⟩
  · exact .inl (List.mem_cons_of_mem _ (mem_mftExceptions (isMftExc_init h)))
  have hread : Read first := ⟨_, _, h8⟩
  rcases bind_eq_error k8 with h | ⟨list, h9, k9⟩
  · rcases findAttributeList_err hread h with h | ⟨h, ha⟩
    · exact .inl h
    · exact .inr ⟨h, .inr ⟨_, _, h8, ha⟩⟩
  have hone : ∀ s ∈ first :: [], Read s := by
    intro s hs; rw [List.mem_singleton.1 hs]; exact hread
  rcases bind_eq_error k9 with h | ⟨r, h10, k10⟩
  · exact .inl (List.mem_cons_of_mem _ (getDataRuns_err (fr := ⟨first, []⟩) hone h))
  obtain ⟨hspc, -, hbps, -⟩ := C50_geometry_partial _ _ h2 _ _ h3 h4
  have hcs : 0 < spc * bps := Nat.mul_pos hspc hbps
  cases r with
  | none => cases k10; exact .inl (by decide)
  | some runs =>
    dsimp only at k10
    rcases bind_eq_error k10 with h | ⟨sz, h11, k11⟩
    · exact .inl (List.mem_cons_of_mem _ (getDataSize_err (fr := ⟨first, []⟩) hone h))
    cases sz with
    | none => cases k11; exact .inl (by decide)
    | some size =>
      dsimp only at k11
      rcases findAttributeList_ok hcs h9 with ⟨e1, e2⟩ | ⟨value, before, a, after, e1, e2, e3, e4, e5⟩
      · subst e1; cases k11
      · subst e1
        dsimp only at k11
        unfold extendByList at k11
        split at k11
        · cases k11; exact .inl (by decide)
        split at k11
        · cases k11; exact .inl (by decide)
        rcases List.mem_append.1 (extendRuns_err hread (by simp) (f := ⟨volume, off, spc * bps, runs, size.toNat⟩) hcs h10 k11) with h | h
        · exact .inl h
        · exact .inr ⟨h, .inr ⟨_, _, h8, a, by rw [e2]; simp, e4⟩⟩

/-- C84 is false of the code: the place of the `$MFT` file can be too large to be sought to. -/
theorem C84_overflow_error : ∃ volume, openVolume volume 0 = .error .OverflowError :=
  ⟨mkBoot (2 ^ 63), by
    have : (openVolume (mkBoot (2 ^ 63)) 0).map (fun f => f.fileSize) = .error .OverflowError := by decide +kernel
    cases h : openVolume (mkBoot (2 ^ 63)) 0 <;> rw [h] at this <;> cases this; rfl⟩

theorem error_of_map {α β : Type} {x : Except Exc α} {g : α → β} {e : Exc} (h : x.map g = .error e) : x = .error e := by
  cases x with
  | error e' => cases h; rfl
  | ok a => cases h

/-- C84 is false of the code: an attribute list at a negative cluster. -/
theorem C84_value_error : ∃ volume, openVolume volume 0 = .error .ValueError :=
  ⟨mkBoot 1 ++ mkSegment 0 1 1 0 0 [mkExtent 0x20 0 0 64 [0x11, 1, 0xFF, 0], mkExtent 0x80 0 1 1024 [0x11, 2, 1, 0]],
    error_of_map (g := fun f => f.fileSize) (by decide +kernel)⟩

/-- A volume like the sample volume with another record 3. -/
def oddVolume (attr : Bytes) : Bytes :=
  [mkBoot 1, mkSegment 0 1 1 0 0 [mkAttr 0x20 sampleEntries.flatten, mkExtent 0x80 0 9 6144 [0x11, 10, 1, 0]],
    plainSegment 1, plainSegment 2, mkSegment 3 3 1 0 0 [attr]].flatten

/-- C84 is false of the code: a resident index allocation attribute in the record 3. -/
theorem C84_attribute_error : ∃ volume, openVolume volume 0 = .error .AttributeError :=
  ⟨oddVolume (mkAttr 0xA0 [1, 2, 3]), error_of_map (g := fun f => f.fileSize) (by decide +kernel)⟩

/-- C84 is false of the code: a short volume information attribute in the record 3. -/
theorem C84_struct_error : ∃ volume, openVolume volume 0 = .error .StructError :=
  ⟨oddVolume (mkAttr 0x70 (zeros 8)), error_of_map (g := fun f => f.fileSize) (by decide +kernel)⟩

end Verif.Props
