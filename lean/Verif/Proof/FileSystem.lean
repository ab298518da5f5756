import Verif.Model.MFT.FileSystem
import Verif.Proof.FileRecord
import Verif.Proof.FragmentedFile
import Verif.Proof.Parser
namespace Verif.MFT
open Verif.Spec.FileRecord Verif.Spec.FragmentedFile

/-! ### More extents give more runs -/

theorem insertBy_sublist {α} (key : α → Int) (x : α) {a b : List α} (h : a.Sublist b)
    (hb : b.Pairwise (fun a b => key a ≤ key b)) : (insertBy key x a).Sublist (insertBy key x b) := by
  induction h with
  | slnil => exact List.Sublist.refl _
  | @cons l₁ l₂ y h ih =>
    rw [List.pairwise_cons] at hb
    show (insertBy key x l₁).Sublist (if key x ≤ key y then x :: y :: l₂ else y :: insertBy key x l₂)
    split
    · rename_i hle
      have e : insertBy key x l₁ = x :: l₁ := by
        cases l₁ with
        | nil => rfl
        | cons z zs =>
          have := hb.1 z (h.subset (by simp))
          unfold insertBy
          rw [if_pos (by omega)]
      rw [e]
      exact (h.cons y).cons_cons x
    · exact (ih hb.2).cons y
  | @cons_cons l₁ l₂ y h ih =>
    rw [List.pairwise_cons] at hb
    show (if key x ≤ key y then x :: y :: l₁ else y :: insertBy key x l₁).Sublist
      (if key x ≤ key y then x :: y :: l₂ else y :: insertBy key x l₂)
    split
    · exact (h.cons_cons y).cons_cons x
    · exact (ih hb.2).cons_cons y

theorem insertBy_sublist_self {α} (key : α → Int) (x : α) (a : List α) : a.Sublist (insertBy key x a) := by
  induction a with
  | nil => exact List.nil_sublist _
  | cons y ys ih =>
    unfold insertBy
    split
    · exact (List.Sublist.refl _).cons x
    · exact ih.cons_cons y

theorem sortBy_sublist {α} (key : α → Int) {a b : List α} (h : a.Sublist b) : (sortBy key a).Sublist (sortBy key b) := by
  induction h with
  | slnil => exact List.Sublist.refl _
  | cons y h ih => exact ih.trans (insertBy_sublist_self key y _)
  | cons_cons y h ih => exact insertBy_sublist key y ih (sortBy_sorted key _)

theorem _root_.Verif.Spec.FileRecord.Connected.lowest {v : Int} {exts : List Extent} {runs : List Run} (h : Connected v exts runs) :
    ∀ e ∈ exts, v ≤ e.lowestVcn := by
  induction h with
  | nil => simp
  | cons hstart hdec hrest ih =>
    intro e he
    rcases List.mem_cons.1 he with rfl | he
    · omega
    · have := ih e he
      have := clusters_nonneg hdec
      omega

theorem _root_.Verif.Spec.FileRecord.Connected.prefix {v : Int} {a b : List Extent} {ra rb : List Run} (h : a.Sublist b)
    (ha : Connected v a ra) (hb : Connected v b rb) : ra <+: rb := by
  induction h generalizing v ra rb with
  | slnil => cases ha; cases hb; exact List.prefix_refl _
  | @cons l₁ l₂ y h ih =>
    cases l₁ with
    | nil => cases ha; exact List.nil_prefix
    | cons z zs =>
      cases hb with
      | @cons _ _ _ ry more hstart hdec hrest =>
        have hz : (z.lowestVcn : Int) = v := by cases ha; assumption
        have h1 := hrest.lowest z (h.subset (by simp))
        have h2 : ry = [] := by
          apply Classical.byContradiction
          intro hne
          have := clusters_pos hdec hne
          omega
        subst h2
        have hrest' : Connected v l₂ more := by simpa [clusters] using hrest
        exact ih ha hrest'
  | @cons_cons l₁ l₂ y h ih =>
    cases ha with
    | @cons _ _ _ r1 m1 s1 d1 t1 =>
      cases hb with
      | @cons _ _ _ r2 m2 s2 d2 t2 =>
        rw [d1] at d2
        cases d2
        exact (List.prefix_append_right_inj r1).2 (ih t1 t2)

theorem _root_.Verif.Spec.FileRecord.Connected.positive {v : Int} {exts : List Extent} {runs : List Run} (h : Connected v exts runs) :
    ∀ r ∈ runs, 0 ≤ r.2 := by
  induction h with
  | nil => simp
  | cons hstart hdec hrest ih =>
    intro r hr
    rcases List.mem_append.1 hr with hr | hr
    · exact Int.le_of_lt (Props.C03_lengths_positive _ _ hdec r hr).1
    · exact ih r hr

/-- What a successful `getDataRuns` computed. -/
theorem getDataRuns_ok {fr : FileRecord} {runs : List Run} (h : fr.getDataRuns = .ok (some runs)) :
    fr.attributes.err = none ∧
    Connected 0 (sortBy (fun e => (e.lowestVcn : Int)) (extentsOf fr.attributes.items none 0x80)) runs := by
  have hno : fr.attributes.err = none := by
    unfold FileRecord.getDataRuns at h
    split at h
    · cases h
    · assumption
  refine ⟨hno, ?_⟩
  rw [getDataRuns_eq _ _ _ hno] at h
  split at h
  · cases h
  rw [show wantedName none = none from rfl, show wantedType false = 0x80 from rfl] at h
  generalize extentsOf fr.attributes.items none 0x80 = m at *
  cases ha : assembleLoop (sortBy (fun e => (e.lowestVcn : Int)) m) none 0 [] with
  | error e => rw [ha] at h; cases h
  | ok rs =>
    rw [ha] at h
    cases h
    obtain ⟨more, hc, hr⟩ := assembleLoop_sound _ _ _ _ _ ha
    rw [hr, List.nil_append]; exact hc

theorem foldr_attributes_append (a b : List FileRecordSegment) :
    (a ++ b).foldr (fun f rest => f.attributesGen.append rest) (Gen.done : Gen AttributeRecord) =
      (a.foldr (fun f rest => f.attributesGen.append rest) Gen.done).append
        (b.foldr (fun f rest => f.attributesGen.append rest) Gen.done) := by
  induction a with
  | nil => rfl
  | cons x xs ih =>
    rw [List.cons_append, List.foldr_cons, List.foldr_cons, ih]
    generalize xs.foldr (fun f rest => f.attributesGen.append rest) Gen.done = u
    generalize b.foldr (fun f rest => f.attributesGen.append rest) Gen.done = w
    generalize x.attributesGen = t
    unfold Gen.append
    cases t.err with
    | some e => rfl
    | none =>
      cases u.err with
      | some e => rfl
      | none => simp only [List.append_assoc]

theorem attributes_append {first : FileRecordSegment} {a b : List FileRecordSegment}
    (h : (FileRecord.mk first (a ++ b)).attributes.err = none) :
    ∃ more, (FileRecord.mk first (a ++ b)).attributes.items = (FileRecord.mk first a).attributes.items ++ more := by
  unfold FileRecord.attributes at *
  rw [show first :: (a ++ b) = (first :: a) ++ b from rfl, foldr_attributes_append] at *
  dsimp only at *
  revert h
  generalize (first :: a).foldr (fun f rest => f.attributesGen.append rest) Gen.done = g
  generalize b.foldr (fun f rest => f.attributesGen.append rest) Gen.done = g'
  unfold Gen.append
  cases g.err with
  | some e => intro h; cases h
  | none => intro _; exact ⟨_, rfl⟩

/-- Further segments extend the data runs. -/
theorem getDataRuns_prefix {first : FileRecordSegment} {a b : List FileRecordSegment} {r r' : List Run}
    (h : (FileRecord.mk first a).getDataRuns = .ok (some r))
    (h' : (FileRecord.mk first (a ++ b)).getDataRuns = .ok (some r')) : r <+: r' := by
  obtain ⟨n1, c1⟩ := getDataRuns_ok h
  obtain ⟨n2, c2⟩ := getDataRuns_ok h'
  obtain ⟨more, hm⟩ := attributes_append n2
  refine Connected.prefix ?_ c1 c2
  apply sortBy_sublist
  rw [hm]
  exact (List.sublist_append_left _ more).filterMap _

theorem getDataRuns_positive {fr : FileRecord} {runs : List Run} (h : fr.getDataRuns = .ok (some runs)) :
    ∀ r ∈ runs, 0 ≤ r.2 := (getDataRuns_ok h).2.positive

/-! ### More runs do not change what is read -/

/-- `g` is `f` with more data runs. -/
structure Extends (f g : FragmentedFile) : Prop where
  runs : f.dataRuns <+: g.dataRuns
  pos : ∀ r ∈ g.dataRuns, 0 ≤ r.2
  volume : g.volume = f.volume
  offset : g.volumeOffset = f.volumeOffset
  cluster : g.clusterSize = f.clusterSize
  size : g.fileSize = f.fileSize

theorem Extends.trans {f g k : FragmentedFile} (h : Extends f g) (h' : Extends g k) : Extends f k :=
  ⟨h.runs.trans h'.runs, h'.pos, h'.volume.trans h.volume, h'.offset.trans h.offset, h'.cluster.trans h.cluster,
    h'.size.trans h.size⟩

theorem Extends.readCluster {f g : FragmentedFile} (h : Extends f g) (lcn : Int) : g.readCluster lcn = f.readCluster lcn := by
  unfold FragmentedFile.readCluster
  rw [h.volume, h.offset, h.cluster]

theorem Extends.readVirtualCluster {f g : FragmentedFile} (h : Extends f g) {vcn : Nat} {c : Bytes}
    (hc : f.readVirtualCluster vcn = .ok c) : g.readVirtualCluster vcn = .ok c := by
  have hp : ∀ r ∈ f.dataRuns, 0 ≤ r.2 := fun r hr => h.pos r (h.runs.subset hr)
  rw [FragmentedFile.readVirtualCluster_eq _ _ hp] at hc
  rw [FragmentedFile.readVirtualCluster_eq _ _ h.pos]
  obtain ⟨t, ht⟩ := h.runs
  cases hm : (clusterMap f.dataRuns)[vcn]? with
  | none => rw [hm] at hc; cases hc
  | some x =>
    have hg : (clusterMap g.dataRuns)[vcn]? = some x := by
      rw [← ht]
      unfold clusterMap at *
      rw [List.flatMap_append, List.getElem?_append_left (List.getElem?_eq_some_iff.1 hm).1, hm]
    rw [hm] at hc
    rw [hg]
    cases x with
    | none => dsimp only at *; rw [h.cluster]; exact hc
    | some lcn => dsimp only at *; rw [h.readCluster]; exact hc

theorem Extends.readLoop {f g : FragmentedFile} (h : Extends f g) (hf : 0 < f.clusterSize) (hg : 0 < g.clusterSize) (size : Nat) (data : Bytes) (pos : Nat)
    {d : Bytes} {pos' : Nat} (hr : f.readLoop hf size data pos = (.ok d, pos')) : g.readLoop hg size data pos = (.ok d, pos') := by
  fun_induction FragmentedFile.readLoop f hf size data pos with
  | case1 data pos hs hp =>
    unfold FragmentedFile.readLoop
    rw [dif_pos hs, if_pos (by rw [h.size]; exact hp)]
    exact hr
  | case2 => cases hr
  | case3 data pos hs hp c hc hpos ih =>
    unfold FragmentedFile.readLoop
    rw [dif_pos hs, if_neg (by rw [h.size]; exact hp)]
    have e : g.readVirtualCluster (pos / g.clusterSize) = .ok c := by
      rw [h.cluster]; exact h.readVirtualCluster hc
    split
    · rename_i e' h'; rw [e] at h'; cases h'
    · rename_i c' h'
      rw [e] at h'; cases h'
      dsimp only
      rw [h.cluster]
      exact ih hr
  | case4 data pos hs =>
    unfold FragmentedFile.readLoop
    rw [dif_neg hs]
    exact hr

theorem Extends.readAt {f g : FragmentedFile} (h : Extends f g) {off n : Nat} {d : Bytes} (hr : f.readAt off n = .ok d) :
    g.readAt off n = .ok d := by
  unfold FragmentedFile.readAt FragmentedFile.read FragmentedFile.effectiveSize at *
  dsimp only at *
  rw [h.size]
  generalize (if (n : Int) < 0 then (f.fileSize : Int) - off else n) = s at *
  unfold FragmentedFile.readSize at *
  rw [h.size]
  split at hr
  · rename_i hc; rw [if_pos hc]; exact hr
  · rename_i hc
    rw [if_neg hc]
    split at hr
    · rename_i hf
      have hg : 0 < g.clusterSize := by rw [h.cluster]; exact hf
      rw [dif_pos hg]
      split at hr
      · cases hr
      · rename_i c hrc
        have e : g.readVirtualCluster (off / g.clusterSize) = .ok c := by
          rw [h.cluster]; exact h.readVirtualCluster hrc
        rw [e]
        dsimp only
        rw [h.cluster]
        generalize hrl : f.readLoop hf s.toNat _ _ = r at hr
        obtain ⟨x, p⟩ := r
        dsimp only at hr
        subst hr
        rw [h.readLoop hf hg _ _ _ hrl]
    · cases hr

theorem Extends.segment {f g : FragmentedFile} (h : Extends f g) {size n : Nat} {s : FileRecordSegment}
    (hs : f.segment size n = .ok s) : g.segment size n = .ok s := by
  unfold FragmentedFile.segment at *
  rw [h.size]
  split at hs
  · cases hs
  rename_i hc
  rw [if_neg hc]
  split at hs
  · cases hs
  · rename_i buf hb
    rw [h.readAt hb]
    exact hs

theorem Extends.segmentSize {f g : FragmentedFile} (h : Extends f g) {size : Nat}
    (hs : f.segmentSize = .ok size) : g.segmentSize = .ok size := by
  unfold FragmentedFile.segmentSize at *
  split at hs
  · cases hs
  rename_i sig h1
  rw [h.readAt h1]
  dsimp only
  split at hs
  · cases hs
  rename_i h2
  rw [if_neg h2]
  split at hs
  · cases hs
  rename_i raw h3
  rw [h.readAt h3]
  dsimp only
  split at hs
  · cases hs
  rename_i h4
  rw [if_neg h4]
  split at hs
  · cases hs
  rename_i h5
  rw [if_neg h5]
  split at hs
  · cases hs
  rename_i vs h6
  rw [h.segment h6]
  exact hs

/-! ### The loop that extends the runs -/

/-- The segment of an attribute list entry is in the file. -/
def Holds (f : FragmentedFile) (e : Attributes.AttributeListEntry) (c : FileRecordSegment) : Prop :=
  ∃ size, f.segmentSize = .ok size ∧ f.segment size (decodeFileRecordSegmentReference e.segmentReference).1 = .ok c

theorem Holds.extend {f g : FragmentedFile} (h : Extends f g) {e c} (hh : Holds f e c) : Holds g e c := by
  obtain ⟨size, h1, h2⟩ := hh
  exact ⟨size, h.segmentSize h1, h.segment h2⟩

/-- `cs` are the segments of the entries `es`, read from `f`. -/
inductive AllHold (f : FragmentedFile) : List Attributes.AttributeListEntry → List FileRecordSegment → Prop
  | nil : AllHold f [] []
  | cons {e es c cs} (h : Holds f e c) (t : AllHold f es cs) : AllHold f (e :: es) (c :: cs)

theorem extendRuns_ok {first : FileRecordSegment} {es : List Attributes.AttributeListEntry} {children : List FileRecordSegment}
    {f g : FragmentedFile} (hf : (FileRecord.mk first children).getDataRuns = .ok (some f.dataRuns))
    (h : extendRuns first es children f = .ok g) :
    ∃ more, Extends f g ∧ AllHold g es more ∧ (FileRecord.mk first (children ++ more)).getDataRuns = .ok (some g.dataRuns) := by
  induction es generalizing children f with
  | nil =>
    cases h
    exact ⟨[], ⟨List.prefix_refl _, getDataRuns_positive hf, rfl, rfl, rfl, rfl⟩, .nil, by simpa using hf⟩
  | cons e rest ih =>
    unfold extendRuns at h
    split at h
    · cases h
    rename_i size h1
    split at h
    · cases h
    rename_i child h2
    split at h
    · cases h
    · cases h
    rename_i runs h3
    have hstep : Extends f { f with dataRuns := runs } :=
      ⟨getDataRuns_prefix hf h3, getDataRuns_positive h3, rfl, rfl, rfl, rfl⟩
    obtain ⟨more, he, ha, hr⟩ := ih (f := { f with dataRuns := runs }) h3 h
    exact ⟨child :: more, hstep.trans he, .cons (.extend (hstep.trans he) ⟨size, h1, h2⟩) ha, by
      rw [List.append_cons]; exact hr⟩

end Verif.MFT
