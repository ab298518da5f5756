/-
Property C82: the `$MFT` file of an NTFS volume (dfir_ntfs/MFT.py:1494-1584).
-/
import Verif.Proof.FileSystemSpec
import Verif.Props.C11
import Verif.Props.C50
namespace Verif.Props
open Verif.MFT Verif.Spec.FileRecord Verif.Spec.FragmentedFile Verif.Spec.FileSystem Verif.Attributes

theorem bind_eq_ok {α β : Type} {x : Except Exc α} {g : α → Except Exc β} {b : β} (h : (x >>= g) = .ok b) :
    ∃ a, x = .ok a ∧ g a = .ok b := by
  cases x with
  | error e => cases h
  | ok a => exact ⟨a, rfl, h⟩

theorem findAttributeList_ok {volume : Bytes} {off cs : Nat} (hcs : 0 < cs) {err : Option Exc} {items : List AttributeRecord} {o : Option Bytes}
    (h : findAttributeList volume off cs err items = .ok o) :
    (o = none ∧ ∀ a ∈ items, a.typeCode ≠ 0x20) ∨
    (∃ value before a after, o = some value ∧ items = before ++ a :: after ∧ (∀ x ∈ before, x.typeCode ≠ 0x20) ∧ a.typeCode = 0x20 ∧
      ListBytes volume off cs value a) := by
  induction items with
  | nil =>
    unfold findAttributeList at h
    split at h
    · cases h
    · cases h; exact .inl ⟨rfl, by simp⟩
  | cons a rest ih =>
    unfold findAttributeList at h
    split at h
    · rename_i ht
      right
      split at h
      · rename_i t n pairs lo hi fs runs
        unfold nonresidentListValue at h
        cases hr : readRuns volume off cs runs [] with
        | error e => rw [hr] at h; cases h
        | ok v =>
          rw [hr] at h
          cases h
          refine ⟨_, [], _, rest, rfl, rfl, by simp, ht, ?_⟩
          obtain ⟨h1, data, h2, h3, h4⟩ := readRuns_ok (fs := fs.toNat) hcs hr
          rw [List.nil_append] at h2
          subst h2
          refine ⟨h1, by rw [List.length_take, h3], ?_⟩
          intro i hi
          rw [List.getElem?_take, if_pos (by omega), Nat.zero_add]
          exact h4 i (by omega)
      · cases h
        exact ⟨_, [], _, rest, rfl, rfl, by simp, ht, rfl⟩
    · rename_i ht
      rcases ih h with ⟨h1, h2⟩ | ⟨value, before, a', after, h1, h2, h3, h4, h5⟩
      · left
        refine ⟨h1, ?_⟩
        intro x hx
        rcases List.mem_cons.1 hx with rfl | hx
        · exact ht
        · exact h2 x hx
      · right
        refine ⟨value, a :: before, a', after, h1, by rw [h2]; rfl, ?_, h4, h5⟩
        intro x hx
        rcases List.mem_cons.1 hx with rfl | hx
        · exact ht
        · exact h3 x hx

/-- The first record of a type is determined. -/
theorem first_unique {p : AttributeRecord → Prop} {b1 b2 a1 a2 : List AttributeRecord} {x y : AttributeRecord}
    (h : b1 ++ x :: a1 = b2 ++ y :: a2) (h1 : ∀ z ∈ b1, ¬ p z) (h2 : ∀ z ∈ b2, ¬ p z) (hx : p x) (hy : p y) : x = y := by
  induction b1 generalizing b2 with
  | nil =>
    cases b2 with
    | nil => cases h; rfl
    | cons z zs => cases h; exact absurd hx (h2 _ (by simp))
  | cons w ws ih =>
    cases b2 with
    | nil => cases h; exact absurd hy (h1 _ (by simp))
    | cons z zs =>
      rw [List.cons_append, List.cons_append] at h
      injection h with _ h
      exact ih h (fun z hz => h1 z (by simp [hz])) (fun z hz => h2 z (by simp [hz]))

theorem foldr_err {ss : List FileRecordSegment}
    (h : (ss.foldr (fun f rest => f.attributesGen.append rest) (Gen.done : Gen AttributeRecord)).err = none) :
    (∀ s ∈ ss, s.attributesGen.err = none) ∧
    (ss.foldr (fun f rest => f.attributesGen.append rest) (Gen.done : Gen AttributeRecord)).items = ss.flatMap (·.attributesGen.items) := by
  induction ss with
  | nil => exact ⟨by simp, rfl⟩
  | cons x xs ih =>
    rw [List.foldr_cons] at h ⊢
    generalize hu : xs.foldr (fun f rest => f.attributesGen.append rest) (Gen.done : Gen AttributeRecord) = u at *
    unfold Gen.append at h ⊢
    cases hx : x.attributesGen.err with
    | some e => rw [hx] at h; cases h
    | none =>
      rw [hx] at h
      dsimp only at h ⊢
      obtain ⟨h1, h2⟩ := ih h
      refine ⟨?_, by rw [h2, List.flatMap_cons]⟩
      intro s hs
      rcases List.mem_cons.1 hs with rfl | hs
      · exact hx
      · exact h1 s hs

/-- C82: opening a volume gives the `$MFT` file that the volume describes: its file record begins at the place the
boot sector records, its data runs are the connected extents in all the segments of its file record, and those
segments are found in the file itself at the places that the attribute list gives. -/
theorem C82_open_sound (volume : Bytes) (off : Nat) (f : FragmentedFile) (h : openVolume volume off = .ok f) :
    ∃ boot spc bps frs cluster first children, IsMft volume off f boot spc bps frs cluster first children := by
  unfold openVolume at h
  obtain ⟨boot, h1, k1⟩ := bind_eq_ok h
  obtain ⟨boot', h2, k2⟩ := bind_eq_ok k1
  clear h k1
  obtain ⟨hb, -, -⟩ := of_seekRead h1
  obtain ⟨rfl, -⟩ := (C50_accepts_iff _ _).1 h2
  obtain ⟨spc, h3, k3⟩ := bind_eq_ok k2
  obtain ⟨bps, h4, k4⟩ := bind_eq_ok k3
  dsimp only at k4
  obtain ⟨frs, h5, k5⟩ := bind_eq_ok k4
  obtain ⟨cluster, h6, k6⟩ := bind_eq_ok k5
  obtain ⟨buf, h7, k7⟩ := bind_eq_ok k6
  obtain ⟨hbuf, -, -⟩ := of_seekRead h7
  obtain ⟨first, h8, k8⟩ := bind_eq_ok k7
  obtain ⟨list, h9, k9⟩ := bind_eq_ok k8
  obtain ⟨r, h10, h⟩ := bind_eq_ok k9
  clear k2 k3 k4 k5 k6 k7 k8 k9
  obtain ⟨hspc, -, hbps, -⟩ := C50_geometry_partial _ _ h2 _ _ h3 h4
  have hcs : 0 < spc * bps := Nat.mul_pos hspc hbps
  cases r with
  | none => cases h
  | some runs =>
    dsimp only at h
    obtain ⟨sz, h11, h⟩ := bind_eq_ok h
    cases sz with
    | none => cases h
    | some size =>
      dsimp only at h
      have hno := (getDataRuns_ok h10).1
      have key : ∀ (g : FragmentedFile) children, Extends ⟨volume, off, spc * bps, runs, size.toNat⟩ g →
          (FileRecord.mk first children).getDataRuns = .ok (some g.dataRuns) →
          ((∀ a ∈ first.attributesGen.items, a.typeCode ≠ 0x20) → children = []) →
          (∀ before a after, first.attributesGen.items = before ++ a :: after → (∀ x ∈ before, x.typeCode ≠ 0x20) →
            a.typeCode = 0x20 → ∃ value e es, ListBytes volume off g.clusterSize value a ∧ DataEntries value (e :: es) ∧
              entryNumber e = 0 ∧ (es = [] ∧ children = [] ∨ ∃ size, SegmentSize g size ∧ Segments g size es children)) →
          IsMft volume off g boot' spc bps frs cluster first children := by
        intro g children he hg hn hl
        have hgn := (getDataRuns_ok hg).1
        obtain ⟨f1, f2⟩ := foldr_err hgn
        obtain ⟨g1, g2⟩ := foldr_err hno
        refine ⟨hb, h2, h3, h4, h5, h6, he.volume, he.offset, he.cluster, ?_, f1, ?_, ?_, hn, hl⟩
        · rw [he.cluster, ← hbuf]; exact h8
        · obtain ⟨exts, p1, p2, p3⟩ := C11_runs_sound _ _ _ _ hg
          refine ⟨exts, ?_, p2, p3⟩
          rw [← f2]
          exact p1
        · have hi : first.attributesGen.items = (FileRecord.mk first []).attributes.items := by
            unfold FileRecord.attributes
            rw [g2]; simp
          rw [hi, show extentsOf (FileRecord.mk first []).attributes.items none 0x80 =
            (FileRecord.mk first []).attributes.items.filterMap (matchExtent (normalizeName none) false) from
              (extentsOf_eq (FileRecord.mk first []) none false).symm]
          unfold FileRecord.getDataSize at h11
          split at h11
          · rename_i e hfind
            cases h11
            obtain ⟨hp, before, after, hsplit, hbefore⟩ := List.find?_eq_some_iff_append.1 hfind
            refine ⟨before, e, after, hsplit, ?_, by simpa using hp, ?_⟩
            · intro x hx; simpa using hbefore x hx
            · rw [he.size]
              have hmem : e ∈ (FileRecord.mk first []).attributes.items.filterMap (matchExtent (normalizeName none) false) := by
                rw [hsplit]; simp
              obtain ⟨a, ha, hm⟩ := List.mem_filterMap.1 hmem
              rw [← hi] at ha
              cases a with
              | resident => cases hm
              | nonresident t n pairs lo hi fs runs =>
                have hfs := (attributesGen_nonresident ha).2
                have : e.fileSize = fs := by
                  unfold matchExtent at hm
                  dsimp only at hm
                  by_cases hc : t = (if false = true then attrTypeIndexAllocation else attrTypeData) ∧ n.map utf16Decode = normalizeName none
                  · rw [if_pos hc] at hm; cases hm; rfl
                  · rw [if_neg hc] at hm; cases hm
                dsimp only
                omega
          · rw [hno] at h11; cases h11
      have hself : Extends ⟨volume, off, spc * bps, runs, size.toNat⟩ ⟨volume, off, spc * bps, runs, size.toNat⟩ :=
        ⟨List.prefix_refl _, getDataRuns_positive h10, rfl, rfl, rfl, rfl⟩
      rcases findAttributeList_ok hcs h9 with ⟨e1, e2⟩ | ⟨value, before, a, after, e1, e2, e3, e4, e5⟩
      · subst e1
        cases h
        refine ⟨boot', spc, bps, frs, cluster, first, [], key _ _ hself h10 (fun _ => rfl) ?_⟩
        intro before a after hs _ ht
        exact absurd ht (e2 a (by rw [hs]; simp))
      · subst e1
        dsimp only at h
        unfold extendByList at h
        split at h
        · cases h
        rename_i e rest hde
        obtain ⟨he0, h⟩ := of_ite_error h
        obtain ⟨children, x1, x2, x3⟩ := extendRuns_ok (f := ⟨volume, off, spc * bps, runs, size.toNat⟩) h10 h
        refine ⟨boot', spc, bps, frs, cluster, first, children, key f children x1 x3 ?_ ?_⟩
        · intro hc
          exact absurd e4 (hc a (by rw [e2]; simp))
        · intro before' a' after' hs hb' ht
          have haa : a = a' := first_unique (p := fun a => a.typeCode = 0x20) (e2.symm.trans hs) e3 hb' e4 ht
          subst haa
          refine ⟨value, e, rest, by rw [x1.cluster]; exact e5, ?_, ?_, x2.segments x1.pos⟩
          · unfold dataEntries at hde
            rw [← hde]
            refine ⟨sortBy_perm _ _, ?_⟩
            refine (sortBy_sorted (fun e : AttributeListEntry => (e.lowestVcn : Int)) _).imp ?_
            intro a b hab
            omega
          · rw [← entryNumber_eq]; exact Classical.not_not.1 he0

end Verif.Props
