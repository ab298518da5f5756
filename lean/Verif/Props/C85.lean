/-
Property C85: every volume whose `$MFT` file can be bootstrapped is opened (dfir_ntfs/MFT.py:1494-1584).
-/
import Verif.Props.C83_C84
namespace Verif.Props
open Verif.MFT Verif.Spec.FileRecord Verif.Spec.FragmentedFile Verif.Spec.FileSystem Verif.Attributes

/-! ### Reads inside readable clusters succeed -/

theorem fileByte_isSome_iff_cluster {f : FragmentedFile} (hcs : 0 < f.clusterSize) {b : Nat} (hb : b ≤ (clusterMap f.dataRuns).length * f.clusterSize)
    (hall : ∀ p, p < (clusterMap f.dataRuns).length * f.clusterSize → (fileByte f p).isSome) {pos : Nat} (hp : pos < b) :
    ∀ i, i < f.clusterSize → (fileByte f (pos / f.clusterSize * f.clusterSize + i)).isSome := by
  intro i hi
  apply hall
  have h1 : pos / f.clusterSize < (clusterMap f.dataRuns).length := (Nat.div_lt_iff_lt_mul hcs).2 (by omega)
  have h2 : (pos / f.clusterSize + 1) * f.clusterSize ≤ (clusterMap f.dataRuns).length * f.clusterSize := Nat.mul_le_mul_right _ h1
  rw [Nat.succ_mul] at h2
  omega

theorem readLoop_inside {f : FragmentedFile} (hv : f.volume.length < 2 ^ 63) (hcs : 0 < f.clusterSize) (hr : ∀ r ∈ f.dataRuns, 0 ≤ r.2)
    {b : Nat} (hb : b ≤ (clusterMap f.dataRuns).length * f.clusterSize)
    (hall : ∀ p, p < (clusterMap f.dataRuns).length * f.clusterSize → (fileByte f p).isSome)
    (size : Nat) (data : Bytes) (pos : Nat) (hpos : pos + (size - data.length) ≤ b) :
    ∃ d pos', f.readLoop hcs size data pos = (.ok d, pos') := by
  fun_induction FragmentedFile.readLoop f hcs size data pos with
  | case1 => exact ⟨_, _, rfl⟩
  | case2 data pos hs hp e he =>
    exfalso
    obtain ⟨c, hc⟩ := FragmentedFile.readVirtualCluster_total (vcn := pos / f.clusterSize) hv hcs hr
      (fileByte_isSome_iff_cluster hcs hb hall (by omega))
    rw [hc] at he; cases he
  | case3 data pos hs hp c hc hlt ih =>
    apply ih
    rw [List.length_append]
    have := slice_length c (pos % f.clusterSize) (pos % f.clusterSize + (size - data.length))
    omega
  | case4 => exact ⟨_, _, rfl⟩

theorem readAt_inside {f : FragmentedFile} (hv : f.volume.length < 2 ^ 63) (hcs : 0 < f.clusterSize) (hr : ∀ r ∈ f.dataRuns, 0 ≤ r.2)
    (hall : ∀ p, p < (clusterMap f.dataRuns).length * f.clusterSize → (fileByte f p).isSome)
    {off n : Nat} (h1 : off + n ≤ (clusterMap f.dataRuns).length * f.clusterSize) (h2 : off + n ≤ f.fileSize) :
    ∃ d, f.readAt off n = .ok d ∧ BytesAt f off n d := by
  have hex : ∃ d, f.readAt off n = .ok d := by
    unfold FragmentedFile.readAt FragmentedFile.read FragmentedFile.readSize
    have he : f.effectiveSize off (some (n : Int)) = n := by
      unfold FragmentedFile.effectiveSize
      dsimp only
      rw [if_neg (by omega)]
    rw [he]
    split
    · exact ⟨_, rfl⟩
    · rename_i hc
      split
      · rename_i e he
        exfalso
        obtain ⟨c, hc⟩ := FragmentedFile.readVirtualCluster_total (vcn := off / f.clusterSize) hv hcs hr
          (fileByte_isSome_iff_cluster hcs h1 hall (by omega))
        rw [hc] at he; cases he
      · rename_i c hrc
        obtain ⟨d, pos', hd⟩ := readLoop_inside hv hcs hr h1 hall (n : Int).toNat
          (slice c (off % f.clusterSize) (off % f.clusterSize + (n : Int).toNat))
          (off + (slice c (off % f.clusterSize) (off % f.clusterSize + (n : Int).toNat)).length) (by
            have := slice_length c (off % f.clusterSize) (off % f.clusterSize + (n : Int).toNat)
            omega)
        rw [hd]
        exact ⟨_, rfl⟩
  obtain ⟨d, hd⟩ := hex
  obtain ⟨h3, h4⟩ := readAt_bytes hr hd
  have hge := FragmentedFile.allocatedEnd_ge (f := f) hcs
  have h5 : d.length = n := by
    rw [h3]
    unfold readCount
    split <;> omega
  rw [h5] at h4
  exact ⟨d, hd, h4⟩

theorem bytesAt_unique {f : FragmentedFile} {off n : Nat} {a b : Bytes} (ha : BytesAt f off n a) (hb : BytesAt f off n b) : a = b := by
  apply List.ext_getElem?
  intro i
  by_cases h : i < n
  · rw [ha.2 i h, hb.2 i h]
  · rw [List.getElem?_eq_none (by rw [ha.1]; omega), List.getElem?_eq_none (by rw [hb.1]; omega)]

/-- What a part of the file gives is what the whole file gives. -/
theorem extends_readAt {f g : FragmentedFile} (he : Extends f g) (hv : f.volume.length < 2 ^ 63) (hcs : 0 < f.clusterSize)
    (hall : ∀ p, p < (clusterMap g.dataRuns).length * g.clusterSize → (fileByte g p).isSome)
    {off n : Nat} (h1 : off + n ≤ (clusterMap f.dataRuns).length * f.clusterSize) (h2 : off + n ≤ f.fileSize) {d : Bytes}
    (hd : BytesAt g off n d) : f.readAt off n = .ok d := by
  have hr : ∀ r ∈ f.dataRuns, 0 ≤ r.2 := fun r hr => he.pos r (he.runs.subset hr)
  have hmap : clusterMap f.dataRuns <+: clusterMap g.dataRuns := by
    obtain ⟨t, ht⟩ := he.runs
    rw [← ht]
    unfold clusterMap
    rw [List.flatMap_append]
    exact List.prefix_append _ _
  have hallf : ∀ p, p < (clusterMap f.dataRuns).length * f.clusterSize → (fileByte f p).isSome := by
    intro p hp
    have hp2 : p < (clusterMap g.dataRuns).length * g.clusterSize := by
      rw [he.cluster]
      exact Nat.lt_of_lt_of_le hp (Nat.mul_le_mul_right _ hmap.length_le)
    have h3 := hall p hp2
    have h4 : p / f.clusterSize < (clusterMap f.dataRuns).length := (Nat.div_lt_iff_lt_mul hcs).2 hp
    obtain ⟨t, ht⟩ := hmap
    unfold fileByte at h3 ⊢
    rw [he.cluster, he.volume, he.offset, ← ht, List.getElem?_append_left h4] at h3
    exact h3
  obtain ⟨d', hd', hb'⟩ := readAt_inside hv hcs hr hallf h1 h2
  have hg := he.readAt hd'
  obtain ⟨h5, h6⟩ := readAt_bytes he.pos hg
  rw [hb'.1] at h6
  rw [hd', bytesAt_unique hd h6]

/-! ### Connected extents -/

theorem connected_append {v : Int} {a b : List Extent} {r : List Run} (h : Connected v (a ++ b) r) :
    ∃ ra rb, r = ra ++ rb ∧ Connected v a ra := by
  induction a generalizing v r with
  | nil => exact ⟨[], r, rfl, .nil _⟩
  | cons x xs ih =>
    cases h with
    | @cons _ _ _ rs more hs hd ht =>
      obtain ⟨ra, rb, h1, h2⟩ := ih ht
      exact ⟨rs ++ ra, rb, by rw [h1, List.append_assoc], .cons hs hd h2⟩

theorem connected_unique {v : Int} {a : List Extent} {r r' : List Run} (h : Connected v a r) (h' : Connected v a r') : r = r' := by
  induction h generalizing r' with
  | nil => cases h'; rfl
  | cons hs hd ht ih =>
    cases h' with
    | cons hs' hd' ht' =>
      rw [hd] at hd'
      cases hd'
      rw [ih ht']

theorem checkVersionLoop_total {s : FileRecordSegment} (h : SupportedVersion s) :
    checkVersionLoop s.attributesGen.err s.attributesGen.items = .ok () := by
  obtain ⟨before, name, v, after, minor, h1, h2, h3, h4, h5⟩ := h
  rw [h1]
  clear h1
  induction before with
  | nil =>
    rw [List.nil_append]
    unfold checkVersionLoop
    have e8 : slice v 8 9 = [3] := by
      apply List.ext_getElem?
      intro i
      rw [slice_getElem?]
      cases i with
      | zero => rw [if_pos (by omega), h3]; rfl
      | succ i => rw [if_neg (by omega)]; rfl
    have e9 : slice v 9 10 = [minor] := by
      apply List.ext_getElem?
      intro i
      rw [slice_getElem?]
      cases i with
      | zero => rw [if_pos (by omega), h4]; rfl
      | succ i => rw [if_neg (by omega)]; rfl
    rw [if_neg (by decide), if_pos rfl, e8, e9]
    have hm : minor.toNat ≠ 0 := fun hc => h5 (UInt8.toNat_inj.1 (by simpa using hc))
    have : leNat [minor] = minor.toNat := by simp [leNat]
    have u3 : unpackLE 1 [3] = .ok 3 := rfl
    have um : unpackLE 1 [minor] = .ok minor.toNat := by
      unfold unpackLE
      rw [if_pos (by rfl), this]
    rw [u3, um]
    dsimp only
    rw [if_neg (by decide), if_neg (by omega)]
  | cons x xs ih =>
    have hx := h2 x (by simp)
    have ih := ih (fun a ha => h2 a (by simp [ha]))
    rw [List.cons_append]
    cases x with
    | nonresident => unfold checkVersionLoop; exact ih
    | resident t n w =>
      unfold checkVersionLoop
      have h70 : t ≠ 0x70 := hx.1
      have hA0 : t ≠ 0xA0 := hx.2
      rw [if_neg hA0, if_neg h70]
      exact ih

/-! ### The steps of opening -/

theorem attributes_readable {first : FileRecordSegment} {children : List FileRecordSegment}
    (h : ∀ s ∈ first :: children, s.attributesGen.err = none) :
    (FileRecord.mk first children).attributes.err = none ∧
    (FileRecord.mk first children).attributes.items = (first :: children).flatMap (·.attributesGen.items) := by
  unfold FileRecord.attributes
  dsimp only
  generalize first :: children = ss at h ⊢
  induction ss with
  | nil => exact ⟨rfl, rfl⟩
  | cons x xs ih =>
    obtain ⟨h1, h2⟩ := ih (fun s hs => h s (by simp [hs]))
    rw [List.foldr_cons]
    generalize xs.foldr (fun f rest => f.attributesGen.append rest) (Gen.done : Gen AttributeRecord) = u at *
    unfold Gen.append
    rw [h x (by simp)]
    exact ⟨h1, by rw [List.flatMap_cons, h2]⟩

theorem extentsOf_append (a b : List AttributeRecord) (n : Option Str) (t : Nat) :
    extentsOf (a ++ b) n t = extentsOf a n t ++ extentsOf b n t := by
  unfold extentsOf
  rw [List.filterMap_append]

/-- The extents in the segments `ss`. -/
abbrev extentsIn (ss : List FileRecordSegment) : List Extent := extentsOf (ss.flatMap (·.attributesGen.items)) none 0x80

theorem extentsIn_append (a b : List FileRecordSegment) : extentsIn (a ++ b) = extentsIn a ++ extentsIn b := by
  unfold extentsIn
  rw [List.flatMap_append, extentsOf_append]

theorem getDataRuns_connected {first : FileRecordSegment} {children : List FileRecordSegment} {runs : List Run}
    (h : ∀ s ∈ first :: children, s.attributesGen.err = none) (hex : extentsIn (first :: children) ≠ [])
    (hne : ∀ e ∈ extentsIn (first :: children), decodeMappingPairs e.mappingPairs ≠ .ok [])
    (hc : Connected 0 (extentsIn (first :: children)) runs) :
    (FileRecord.mk first children).getDataRuns = .ok (some runs) := by
  obtain ⟨h1, h2⟩ := attributes_readable h
  refine C11_runs_complete _ none false (extentsIn (first :: children)) runs h1 ?_ hex hne hc
  rw [h2]
  exact List.Perm.refl _

theorem readRuns_total {volume : Bytes} {off cs : Nat} (hv : volume.length < 2 ^ 63) (hcs : 0 < cs) {runs : List Run} {fs : Nat}
    (hpos : ∀ r ∈ runs, 0 < r.2) (hs : ∀ r ∈ runs, r.1 ≠ none)
    (hall : ∀ p, p < (clusterMap runs).length * cs → (fileByte ⟨volume, off, cs, runs, fs⟩ p).isSome) (acc : Bytes) :
    ∃ v, readRuns volume off cs runs acc = .ok v := by
  induction runs generalizing acc with
  | nil => exact ⟨_, rfl⟩
  | cons r rest ih =>
    obtain ⟨o, n⟩ := r
    have hn : 0 < n := hpos (o, n) (by simp)
    cases o with
    | none => exact absurd rfl (hs (none, n) (by simp))
    | some lcn =>
      have hlen : (clusterMap ((some lcn, n) :: rest)).length = n.toNat + (clusterMap rest).length := by
        simp only [clusterMap, List.flatMap_cons, List.length_append, List.length_map, List.length_range]
      have hmul : 0 < n.toNat * cs := Nat.mul_pos (by omega) hcs
      have inside : ∀ p, p < n.toNat * cs → 0 ≤ (off : Int) + lcn * cs + p ∧ (off : Int) + lcn * cs + p < volume.length := by
        intro p hp
        have h1 := hall p (by rw [hlen, Nat.add_mul]; omega)
        rw [fileByte_cons (fs' := fs) hcs, if_pos hp] at h1
        dsimp only [volumeByte] at h1
        split at h1
        · cases h1
        · rename_i h2
          rw [Option.isSome_iff_exists] at h1
          obtain ⟨b, hb⟩ := h1
          have := (List.getElem?_eq_some_iff.1 hb).1
          omega
      have i0 := inside 0 hmul
      have i1 := inside (n.toNat * cs - 1) (by omega)
      unfold readRuns
      dsimp only
      rw [if_neg (by omega), seekRead_ok (by omega) (by omega)]
      dsimp only
      rw [if_neg (by rw [slice_length]; omega)]
      apply ih (fun r hr => hpos r (by simp [hr])) (fun r hr => hs r (by simp [hr]))
      intro p hp
      have h1 := hall (n.toNat * cs + p) (by rw [hlen, Nat.add_mul]; omega)
      rw [fileByte_cons (fs' := fs) hcs, if_neg (by omega), Nat.add_sub_cancel_left] at h1
      exact h1

theorem findAttributeList_none {volume : Bytes} {off cs : Nat} {items : List AttributeRecord} (h : ∀ a ∈ items, a.typeCode ≠ 0x20) :
    findAttributeList volume off cs none items = .ok none := by
  induction items with
  | nil => rfl
  | cons a rest ih =>
    unfold findAttributeList
    rw [if_neg (h a (by simp))]
    exact ih (fun x hx => h x (by simp [hx]))

theorem findAttributeList_some {volume : Bytes} {off cs : Nat} (hv : volume.length < 2 ^ 63) (hcs : 0 < cs) {err : Option Exc}
    {before after : List AttributeRecord} {a : AttributeRecord} {value : Bytes} (hb : ∀ x ∈ before, x.typeCode ≠ 0x20) (ha : a.typeCode = 0x20)
    (hl : ListBytes volume off cs value a)
    (hdec : ∀ t n pairs lo hi fs runs, a = .nonresident t n pairs lo hi fs runs → decodeMappingPairs pairs = .ok runs)
    (hin : ∀ t n pairs lo hi fs runs, a = .nonresident t n pairs lo hi fs runs →
        ∀ p, p < (clusterMap runs).length * cs → (fileByte ⟨volume, off, cs, runs, fs.toNat⟩ p).isSome) :
    findAttributeList volume off cs err (before ++ a :: after) = .ok (some value) := by
  induction before with
  | cons x xs ih =>
    rw [List.cons_append]
    unfold findAttributeList
    rw [if_neg (hb x (by simp))]
    exact ih (fun y hy => hb y (by simp [hy]))
  | nil =>
    rw [List.nil_append]
    unfold findAttributeList
    rw [if_pos ha]
    cases a with
    | resident t n v => cases hl; rfl
    | nonresident t n pairs lo hi fs runs =>
      obtain ⟨l1, l2⟩ := hl
      have hd := hdec _ _ _ _ _ _ _ rfl
      obtain ⟨v, hr⟩ := readRuns_total (fs := fs.toNat) hv hcs (fun r hr => (C03_lengths_positive _ _ hd r hr).1) l1
        (hin _ _ _ _ _ _ _ rfl) []
      obtain ⟨-, data, h2, h3, h4⟩ := readRuns_ok (fs := fs.toNat) hcs hr
      rw [List.nil_append] at h2
      subst h2
      dsimp only
      unfold nonresidentListValue
      rw [hr]
      have : v.take fs.toNat = value := by
        refine bytesAt_unique (f := ⟨volume, off, cs, runs, fs.toNat⟩) ⟨by rw [List.length_take, h3], ?_⟩ l2
        intro i hi
        rw [List.getElem?_take, if_pos (by omega), Nat.zero_add]
        exact h4 i (by omega)
      rw [← this]
      rfl

/-- The part of the file that the extents in the segments `ss` describe. -/
theorem extends_of_connected {f : FragmentedFile} {a b : List FileRecordSegment} {r : List Run}
    (hc : Connected 0 (extentsIn (a ++ b)) f.dataRuns) (hr : Connected 0 (extentsIn a) r) : Extends { f with dataRuns := r } f := by
  refine ⟨?_, hc.positive, rfl, rfl, rfl, rfl⟩
  rw [extentsIn_append] at hc
  exact Connected.prefix (List.sublist_append_left _ _) hr hc

theorem covers_runs {f : FragmentedFile} {ss : List FileRecordSegment} {b : Nat} {r : List Run} (h : Covers f ss b)
    (hr : Connected 0 (extentsIn ss) r) : b ≤ (clusterMap r).length * f.clusterSize := by
  obtain ⟨r', h1, h2⟩ := h
  rw [connected_unique hr h1]
  exact h2

/-- A segment in the clusters that are known is found. -/
theorem segment_inside {f g : FragmentedFile} (he : Extends f g) (hv : f.volume.length < 2 ^ 63) (hcs : 0 < f.clusterSize)
    (hall : ∀ p, p < (clusterMap g.dataRuns).length * g.clusterSize → (fileByte g p).isSome) {size n : Nat} {s : FileRecordSegment}
    (h1 : (n + 1) * size ≤ (clusterMap f.dataRuns).length * f.clusterSize) (h2 : (n + 1) * size ≤ f.fileSize)
    (hs : SegmentAt g size n s) : f.segment size n = .ok s := by
  obtain ⟨buf, b1, b2⟩ := hs
  rw [Nat.add_mul, Nat.one_mul] at h1 h2
  have hge := FragmentedFile.allocatedEnd_ge (f := g) (by rw [he.cluster]; exact hcs)
  rw [he.size] at hge
  rw [Nat.min_eq_left (by omega)] at b1
  unfold FragmentedFile.segment
  rw [if_neg (by omega), extends_readAt he hv hcs hall h1 h2 b1]
  exact b2

theorem segmentSize_inside {f g : FragmentedFile} (he : Extends f g) (hv : f.volume.length < 2 ^ 63) (hcs : 0 < f.clusterSize)
    (hall : ∀ p, p < (clusterMap g.dataRuns).length * g.clusterSize → (fileByte g p).isSome) {size : Nat} {version : FileRecordSegment}
    (h1 : 4 * size ≤ (clusterMap f.dataRuns).length * f.clusterSize) (h2 : 4 * size ≤ f.fileSize)
    (hs : SegmentSize g size) (hver : SegmentAt g size 3 version) (hsup : SupportedVersion version) : f.segmentSize = .ok size := by
  obtain ⟨s1, s2, s3⟩ := hs
  have hlt : size < 256 ^ 4 := by rcases s3 with rfl | rfl <;> decide
  unfold FragmentedFile.segmentSize
  rw [extends_readAt he hv hcs hall (by omega) (by omega) s1]
  dsimp only
  rw [if_neg (by decide), extends_readAt he hv hcs hall (by omega) (by omega) s2]
  dsimp only
  rw [if_neg (by rw [s2.1]; decide), leNat_natLE_of_lt hlt, if_neg (by rcases s3 with rfl | rfl <;> decide),
    segment_inside he hv hcs hall h1 h2 hver]
  dsimp only
  rw [checkVersionLoop_total hsup]

theorem extendRuns_total {f : FragmentedFile} (hv : f.volume.length < 2 ^ 63) (hcs : 0 < f.clusterSize)
    (hall : ∀ p, p < (clusterMap f.dataRuns).length * f.clusterSize → (fileByte f p).isSome) {size : Nat} {first version : FileRecordSegment}
    (hs : SegmentSize f size) (hver : SegmentAt f size 3 version) (hsup : SupportedVersion version) (h4 : Covers f [first] (4 * size))
    (h5 : 4 * size ≤ f.fileSize) (hex : extentsIn [first] ≠ []) {es : List AttributeListEntry} {todo : List FileRecordSegment}
    (hseg : Segments f size es todo) (done : List FileRecordSegment) (hreach : Reachable f size (first :: done) es todo)
    (hread : ∀ s ∈ first :: (done ++ todo), s.attributesGen.err = none)
    (hne : ∀ e ∈ extentsIn (first :: (done ++ todo)), decodeMappingPairs e.mappingPairs ≠ .ok [])
    (hc : Connected 0 (extentsIn (first :: (done ++ todo))) f.dataRuns) (r : List Run) (hr : Connected 0 (extentsIn (first :: done)) r) :
    extendRuns first es done { f with dataRuns := r } = .ok f := by
  induction hseg generalizing done r with
  | nil =>
    rw [List.append_nil] at hc
    rw [connected_unique hr hc]
    rfl
  | @cons e es c todo head tail ih =>
    cases hreach with
    | cons hcov hin hreach =>
      have he : Extends { f with dataRuns := r } f := extends_of_connected (a := first :: done) (b := c :: todo) hc hr
      have hlist : first :: (done ++ c :: todo) = (first :: (done ++ [c])) ++ todo := by simp
      have k4 : 4 * size ≤ (clusterMap r).length * f.clusterSize := by
        obtain ⟨r0, c1, c2⟩ := h4
        refine Nat.le_trans c2 (Nat.mul_le_mul_right _ ?_)
        have hp : r0 <+: r := Connected.prefix (by
          rw [show first :: done = [first] ++ done from rfl, extentsIn_append]; exact List.sublist_append_left _ _) c1 hr
        obtain ⟨t, rfl⟩ := hp
        unfold clusterMap
        rw [List.flatMap_append, List.length_append]
        omega
      unfold extendRuns
      rw [segmentSize_inside he hv hcs hall k4 h5 hs hver hsup]
      dsimp only
      rw [entryNumber_eq, segment_inside he hv hcs hall (covers_runs hcov hr) hin head]
      dsimp only
      have hc' := hc
      rw [hlist, extentsIn_append] at hc'
      obtain ⟨r', _, -, hr'⟩ := connected_append hc'
      have hx : extentsIn (first :: (done ++ [c])) ≠ [] := by
        rw [show first :: (done ++ [c]) = [first] ++ (done ++ [c]) from rfl, extentsIn_append]
        simp [hex]
      rw [getDataRuns_connected (fun s hs => hread s (by rw [hlist]; exact List.mem_append_left _ hs)) hx
        (fun e he => hne e (by rw [hlist, extentsIn_append]; exact List.mem_append_left _ he)) hr']
      dsimp only
      refine ih (done ++ [c]) ?_ ?_ ?_ ?_ r' hr'
      · exact hreach
      · rw [List.append_assoc]; exact hread
      · rw [List.append_assoc]; exact hne
      · rw [List.append_assoc]; exact hc

/-- C85: a volume whose `$MFT` file can be found segment by segment is opened, and gives that file. -/
theorem C85_open_complete (volume : Bytes) (off : Nat) (f : FragmentedFile) (boot : Bytes) (spc bps frs cluster : Nat)
    (first : FileRecordSegment) (children : List FileRecordSegment) (m : IsMft volume off f boot spc bps frs cluster first children)
    (b : Bootstraps volume off f first children) (hv : volume.length < 2 ^ 63) (hoff : off < 2 ^ 63)
    (hplace : off + cluster * f.clusterSize < 2 ^ 63) (hfrs : frs < 2 ^ 63) : openVolume volume off = .ok f := by
  obtain ⟨hspc, -, hbps, -⟩ := C50_geometry_partial _ _ m.boot_ok _ _ m.spc_eq m.bps_eq
  have hcs : 0 < f.clusterSize := by rw [m.size_eq]; exact Nat.mul_pos hspc hbps
  have hfirst : extentsIn [first] = extentsOf first.attributesGen.items none 0x80 := by simp [extentsIn]
  obtain ⟨before0, e0, after0, z1, z2, z3, z4⟩ := m.size
  have hex : extentsIn [first] ≠ [] := by rw [hfirst, z1]; simp
  have hord := b.order
  obtain ⟨r0, _, -, hr0⟩ := connected_append (a := extentsIn [first]) (b := extentsIn children) (by
    rw [← extentsIn_append]; exact hord)
  have hread1 : ∀ s ∈ first :: ([] : List FileRecordSegment), s.attributesGen.err = none := by
    intro s hs
    exact m.readable s (by simp at hs; simp [hs])
  have hruns : (FileRecord.mk first []).getDataRuns = .ok (some r0) := by
    refine getDataRuns_connected hread1 hex ?_ hr0
    intro e he
    exact b.nonempty e (by
      rw [show first :: children = [first] ++ children from rfl]
      show e ∈ extentsIn ([first] ++ children)
      rw [extentsIn_append]; exact List.mem_append_left _ he)
  have hsize : (FileRecord.mk first []).getDataSize = .ok (some (f.fileSize : Int)) := by
    obtain ⟨a1, a2⟩ := attributes_readable hread1
    have hfm : (FileRecord.mk first []).attributes.items.filterMap (matchExtent (normalizeName none) false) = before0 ++ e0 :: after0 := by
      rw [extentsOf_eq (FileRecord.mk first []) none false, a2, ← z1]
      simp [wantedName, wantedType]
    have hfind : (before0 ++ e0 :: after0).find? (fun e => e.lowestVcn = 0) = some e0 := by
      rw [List.find?_eq_some_iff_append]
      exact ⟨by simpa using z3, before0, after0, rfl, fun x hx => by simpa using z2 x hx⟩
    unfold FileRecord.getDataSize
    rw [hfm, hfind, ← z4]
  have hboot : seekRead volume off 512 = .ok boot := by rw [seekRead_ok hoff (by decide), m.boot_eq]
  have hsegb : seekRead volume (off + cluster * (spc * bps)) frs =
      .ok (slice volume (off + cluster * (spc * bps)) (off + cluster * (spc * bps) + frs)) := by
    rw [← m.size_eq, seekRead_ok hplace hfrs]
  have hinit := m.first_eq
  have hself : (⟨volume, off, spc * bps, r0, f.fileSize⟩ : FragmentedFile) = { f with dataRuns := r0 } := by
    rw [← m.volume_eq, ← m.offset_eq, ← m.size_eq]
  rw [m.size_eq] at hinit
  unfold openVolume
  rw [hboot]
  dsimp only [bind, Except.bind]
  rw [m.boot_ok]
  dsimp only
  rw [m.spc_eq]
  dsimp only
  rw [m.bps_eq]
  dsimp only
  rw [m.frs_eq]
  dsimp only
  rw [m.cluster_eq]
  dsimp only
  rw [hsegb]
  dsimp only
  rw [hinit]
  dsimp only
  by_cases hlist : ∀ a ∈ first.attributesGen.items, a.typeCode ≠ 0x20
  · have hch := m.noList hlist
    subst hch
    rw [m.readable first (by simp), findAttributeList_none hlist]
    dsimp only
    rw [hruns]
    dsimp only
    rw [hsize]
    dsimp only
    rw [Int.toNat_natCast, hself, connected_unique hr0 hord]
  · obtain ⟨before, a, after, s1, s2, s3⟩ : ∃ before a after, first.attributesGen.items = before ++ a :: after ∧
        (∀ x ∈ before, x.typeCode ≠ 0x20) ∧ a.typeCode = 0x20 := by
      cases hf : first.attributesGen.items.find? (fun a => a.typeCode = 0x20) with
      | none =>
        exfalso
        apply hlist
        intro a ha
        simpa using List.find?_eq_none.1 hf a ha
      | some a =>
        obtain ⟨h1, before, after, h2, h3⟩ := List.find?_eq_some_iff_append.1 hf
        exact ⟨before, a, after, h2, fun x hx => by simpa using h3 x hx, by simpa using h1⟩
    obtain ⟨value, e, es, l1, l2, l3, l4, l5, l6⟩ := b.list before a after s1 s2 s3
    have hmem : a ∈ first.attributesGen.items := by rw [s1]; simp
    have hfind : findAttributeList volume off (spc * bps) first.attributesGen.err first.attributesGen.items = .ok (some value) := by
      rw [s1]
      refine findAttributeList_some hv (by rw [← m.size_eq]; exact hcs) s2 s3 (by rw [← m.size_eq]; exact l1) ?_ (by rw [← m.size_eq]; exact l2)
      intro t n pairs lo hi fs runs ha
      subst ha
      exact (attributesGen_nonresident hmem).1
    have hentries : dataEntries value = e :: es := by
      unfold dataEntries
      refine sortBy_eq_of_perm _ l3.1.symm ?_
      refine (l3.2.and l4).imp ?_
      intro a b hab
      omega
    rw [hfind]
    dsimp only
    rw [hruns]
    dsimp only
    rw [hsize]
    dsimp only
    rw [Int.toNat_natCast, hself]
    unfold extendByList
    rw [hentries]
    dsimp only
    rw [if_neg (by rw [entryNumber_eq, l5]; simp)]
    rcases l6 with ⟨rfl, rfl⟩ | ⟨size, version, q1, q2, q3, q4, q5, q6, q7⟩
    · rw [connected_unique hr0 hord]
      rfl
    · exact extendRuns_total (by rw [m.volume_eq]; exact hv) hcs b.inVolume q1 q4 q5 q6 q7 hex q2 [] q3 m.readable b.nonempty hord r0 hr0

/-! ### The sample volume meets the hypotheses -/

theorem fileByte_total {volume : Bytes} {off cs fs : Nat} (hcs : 0 < cs) {runs : List Run}
    (h : ∀ r ∈ runs, ∃ l : Nat, r.1 = some (l : Int) ∧ off + (l + r.2.toNat) * cs ≤ volume.length) {p : Nat}
    (hp : p < (clusterMap runs).length * cs) : (fileByte ⟨volume, off, cs, runs, fs⟩ p).isSome := by
  induction runs generalizing p with
  | nil => simp [clusterMap] at hp
  | cons r rest ih =>
    obtain ⟨o, n⟩ := r
    obtain ⟨l, h1, h2⟩ := h (o, n) (by simp)
    dsimp only at h1 h2
    subst h1
    have hlen : (clusterMap ((some (l : Int), n) :: rest)).length = n.toNat + (clusterMap rest).length := by
      simp only [clusterMap, List.flatMap_cons, List.length_append, List.length_map, List.length_range]
    rw [hlen, Nat.add_mul] at hp
    rw [fileByte_cons (fs' := fs) hcs]
    split
    · rw [Nat.add_mul] at h2
      dsimp only [volumeByte]
      have e : (l : Int) * cs = ((l * cs : Nat) : Int) := by simp
      rw [e, if_neg (by omega), List.getElem?_eq_getElem (by omega)]
      rfl
    · exact ih (fun r hr => h r (by simp [hr])) (by omega)

/-- The `$MFT` file of the sample volume, and its segments. -/
def sampleFile : FragmentedFile := ⟨sampleVolume [0x11, 10, 1, 0] sampleEntries, 0, 512, [(some 1, 10), (some 12, 2)], 6144⟩
def sampleSegment (n : Nat) : FileRecordSegment :=
  match sampleFile.segment 1024 n with
  | .ok s => s
  | .error _ => ⟨[], 0, 0, false, none⟩

theorem sampleSegment_at {n : Nat} (h : (sampleFile.segment 1024 n).isOk = true) : SegmentAt sampleFile 1024 n (sampleSegment n) := by
  apply segment_ok (by decide)
  unfold sampleSegment
  cases hs : sampleFile.segment 1024 n with
  | ok s => rfl
  | error e => rw [hs] at h; cases h

theorem sampleFirst_items : (sampleSegment 0).attributesGen.items = [.resident 0x20 none sampleEntries.flatten,
    .nonresident 0x80 none [17, 10, 1, 0, 0, 0, 0, 0] 0 9 6144 [(some 1, 10)]] ∧ (sampleSegment 0).attributesGen.err = none := by
  decide +kernel
theorem sampleChild_items : (sampleSegment 4).attributesGen.items =
    [.nonresident 0x80 none [17, 2, 12, 0, 0, 0, 0, 0] 10 11 0 [(some 12, 2)]] ∧ (sampleSegment 4).attributesGen.err = none := by
  decide +kernel
theorem sampleVersion_items : (sampleSegment 3).attributesGen.items =
    [.resident 0x70 none [0, 0, 0, 0, 0, 0, 0, 0, 3, 1, 0, 0]] := by decide +kernel

theorem sample_extents : extentsOf ([sampleSegment 0, sampleSegment 4].flatMap (·.attributesGen.items)) none 0x80 =
    [⟨0, 9, 6144, [17, 10, 1, 0, 0, 0, 0, 0]⟩, ⟨10, 11, 0, [17, 2, 12, 0, 0, 0, 0, 0]⟩] := by
  simp only [List.flatMap_cons, List.flatMap_nil, sampleFirst_items.1, sampleChild_items.1]
  decide

theorem sample_connected : Connected 0 (extentsOf ([sampleSegment 0, sampleSegment 4].flatMap (·.attributesGen.items)) none 0x80)
    sampleFile.dataRuns := by
  rw [sample_extents]
  exact .cons (rs := [(some 1, 10)]) rfl (by decide +kernel) (.cons (rs := [(some 12, 2)]) rfl (by decide +kernel) (.nil _))

theorem sample_covers {b : Nat} (h : b ≤ 5120) : Covers sampleFile [sampleSegment 0] b := by
  refine ⟨[(some 1, 10)], ?_, h⟩
  simp only [List.flatMap_cons, List.flatMap_nil, sampleFirst_items.1]
  exact .cons (rs := [(some 1, 10)]) rfl (by decide +kernel) (.nil _)

theorem sample_list_unique {before after : List AttributeRecord} {a : AttributeRecord}
    (h : (sampleSegment 0).attributesGen.items = before ++ a :: after) (hb : ∀ x ∈ before, x.typeCode ≠ 0x20) (ha : a.typeCode = 0x20) :
    a = .resident 0x20 none sampleEntries.flatten := by
  rw [sampleFirst_items.1] at h
  exact (first_unique (p := fun a => a.typeCode = 0x20) (b1 := []) h (by simp) hb rfl ha).symm

def sampleEntry0 : AttributeListEntry := ⟨0x80, none, 0, 0, 281474976710656⟩
def sampleEntry4 : AttributeListEntry := ⟨0x80, none, 0, 10, 281474976710660⟩

theorem sample_entries : DataEntries sampleEntries.flatten [sampleEntry0, sampleEntry4] := by
  refine ⟨?_, by decide⟩
  have h : (attributeListEntries sampleEntries.flatten).filter (fun e => e.typeCode = 0x80 ∧ e.name = none) = [sampleEntry4, sampleEntry0] := by
    decide +kernel
  rw [h]
  exact List.Perm.swap _ _ _

theorem sample_segments : SegmentSize sampleFile 1024 ∧ Segments sampleFile 1024 [sampleEntry4] [sampleSegment 4] :=
  ⟨segmentSize_ok (by decide) (by decide +kernel), .cons (sampleSegment_at (by decide +kernel)) .nil⟩

theorem sample_isMft : IsMft sampleFile.volume 0 sampleFile (mkBoot 1) 1 512 1024 1 (sampleSegment 0) [sampleSegment 4] where
  boot_eq := by decide +kernel
  boot_ok := by decide +kernel
  spc_eq := by decide +kernel
  bps_eq := by decide +kernel
  frs_eq := by decide +kernel
  cluster_eq := by decide +kernel
  volume_eq := rfl
  offset_eq := rfl
  size_eq := rfl
  first_eq := by decide +kernel
  readable := by simp [sampleFirst_items.2, sampleChild_items.2]
  runs := ⟨_, List.Perm.refl _, by rw [sample_extents]; simp, sample_connected⟩
  size := ⟨[], ⟨0, 9, 6144, [17, 10, 1, 0, 0, 0, 0, 0]⟩, [], by rw [sampleFirst_items.1]; decide, by simp, rfl, rfl⟩
  noList := fun h => absurd rfl (h (.resident 0x20 none sampleEntries.flatten) (by rw [sampleFirst_items.1]; simp))
  list := by
    intro before a after h hb ha
    obtain rfl := sample_list_unique h hb ha
    exact ⟨_, sampleEntry0, [sampleEntry4], rfl, sample_entries, by decide, .inr ⟨1024, sample_segments⟩⟩

theorem sample_bootstraps : Bootstraps sampleFile.volume 0 sampleFile (sampleSegment 0) [sampleSegment 4] where
  order := sample_connected
  nonempty := by rw [sample_extents]; decide +kernel
  inVolume := by
    have hl : sampleFile.volume.length = 7168 := by decide +kernel
    intro p hp
    refine fileByte_total (volume := sampleFile.volume) (off := 0) (cs := 512) (by decide) ?_ hp
    intro r hr
    rw [hl]
    rcases List.mem_cons.1 hr with rfl | hr
    · exact ⟨1, rfl, by decide⟩
    · obtain rfl := List.mem_singleton.1 hr
      exact ⟨12, rfl, by decide⟩
  list := by
    intro before a after h hb ha
    obtain rfl := sample_list_unique h hb ha
    refine ⟨_, sampleEntry0, [sampleEntry4], rfl, by intros; contradiction, sample_entries, by decide, by decide, .inr ?_⟩
    refine ⟨1024, sampleSegment 3, sample_segments.1, sample_segments.2, ?_, sampleSegment_at (by decide +kernel), ?_,
      sample_covers (by decide), by decide⟩
    · exact .cons (sample_covers (by decide)) (by decide) .nil
    · exact ⟨[], none, _, [], 1, sampleVersion_items, by simp, rfl, rfl, by decide⟩

example : openVolume sampleFile.volume 0 = .ok sampleFile :=
  C85_open_complete _ _ _ _ _ _ _ _ _ _ sample_isMft sample_bootstraps
    (by rw [show sampleFile.volume.length = 7168 from by decide +kernel]; decide) (by decide) (by decide) (by decide)

end Verif.Props
