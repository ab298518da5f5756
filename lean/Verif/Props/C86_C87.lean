/-
Properties C86 and C87: merged attributes (dfir_ntfs/MFT.py:758-810).
-/
import Verif.Spec.MergedAttributes
import Verif.Props.C85
namespace Verif.Props
open Verif.MFT Verif.Spec.MergedAttributes Verif.Spec.FileRecord Verif.Spec.FragmentedFile

/-- The data runs of a nonresident attribute record are those of its mapping pairs. -/
def Decoded (a : AttributeRecord) : Prop := ∀ t n pairs lo hi fs runs, a = .nonresident t n pairs lo hi fs runs → decodeMappingPairs pairs = .ok runs

theorem attributes_decoded (fr : FileRecord) : ∀ a ∈ fr.attributes.items, Decoded a := by
  unfold FileRecord.attributes
  generalize fr.base :: fr.children = ss
  induction ss with
  | nil => intro a ha; cases ha
  | cons x xs ih =>
    rw [List.foldr_cons]
    generalize xs.foldr (fun f rest => f.attributesGen.append rest) (Gen.done : Gen AttributeRecord) = u at *
    intro a ha
    have hx : ∀ a ∈ x.attributesGen.items, Decoded a := by
      intro a ha t n pairs lo hi fs runs e
      subst e
      exact (attributesGen_nonresident ha).1
    unfold Gen.append at ha
    split at ha
    · exact hx a ha
    · rcases List.mem_append.1 ha with ha | ha
      · exact hx a ha
      · exact ih a ha

/-- The fields of a record, with the record. -/
theorem further_fields (attrs : List AttributeRecord) (t : Nat) (name : Option Str) :
    ((attrs.filterMap (·.nonresidentFields)).filter fun e => e.lowestVcn ≠ 0).filter (fun e => e.typeCode = t ∧ e.name = name) =
      (attrs.filter (IsFurther t name)).filterMap (·.nonresidentFields) := by
  induction attrs with
  | nil => rfl
  | cons a rest ih =>
    cases a with
    | resident => simpa [AttributeRecord.nonresidentFields, IsFurther] using ih
    | nonresident t' n pairs lo hi fs runs =>
      have hf : (AttributeRecord.nonresident t' n pairs lo hi fs runs).nonresidentFields = some ⟨t', n.map utf16Decode, lo, hi, fs, pairs⟩ := rfl
      rw [List.filterMap_cons_some hf, List.filter_cons, List.filter_cons]
      have hi' : IsFurther t name (.nonresident t' n pairs lo hi fs runs) = decide (lo ≠ 0 ∧ t' = t ∧ n.map utf16Decode = name) := rfl
      rw [hi']
      dsimp only
      by_cases h0 : lo ≠ 0
      · rw [if_pos (by simpa using h0), List.filter_cons]
        dsimp only
        by_cases h1 : t' = t ∧ n.map utf16Decode = name
        · rw [if_pos (by simpa using h1), if_pos (by simpa using ⟨h0, h1⟩), List.filterMap_cons_some hf, ih]
        · rw [if_neg (by simpa using h1), if_neg (by simpa using fun _ => by simpa using h1), ih]
      · rw [if_neg (by simpa using h0), if_neg (by simp at h0; simp [h0]), ih]

/-- The fields of a nonresident record. -/
def Fields (e : NonresidentFields) (a : AttributeRecord) : Prop := a.nonresidentFields = some e

theorem perm_lift {l : List NonresidentFields} {as : List AttributeRecord} (h : l.Perm (as.filterMap (·.nonresidentFields)))
    (hn : ∀ a ∈ as, a.nonresidentFields.isSome) : ∃ bs : List AttributeRecord, bs.Perm as ∧ bs.map (·.nonresidentFields) = l.map some := by
  have hm : as.map (·.nonresidentFields) = (as.filterMap (·.nonresidentFields)).map some := by
    clear h
    induction as with
    | nil => rfl
    | cons a rest ih =>
      obtain ⟨e, he⟩ := Option.isSome_iff_exists.1 (hn a (by simp))
      rw [List.filterMap_cons_some he, List.map_cons, List.map_cons, he, ih (fun x hx => hn x (by simp [hx]))]
  have hp : (l.map some).Perm (as.map (·.nonresidentFields)) := by rw [hm]; exact h.map some
  clear h hm hn
  generalize l.map some = k at hp
  generalize hg : as.map (·.nonresidentFields) = k2 at hp
  induction hp generalizing as with
  | nil => cases as with
    | nil => exact ⟨[], .nil, rfl⟩
    | cons => cases hg
  | cons x hp ih =>
    cases as with
    | nil => cases hg
    | cons a rest =>
      injection hg with h1 h2
      obtain ⟨bs, b1, b2⟩ := ih h2
      exact ⟨a :: bs, b1.cons a, by rw [List.map_cons, b2]; exact congrArg (· :: _) h1⟩
  | swap x y l =>
    match as, hg with
    | a :: b :: rest, hg =>
      injection hg with h1 h2
      injection h2 with h2 h3
      exact ⟨b :: a :: rest, .swap _ _ _, by simp only [List.map_cons, h1, h2, h3]⟩
  | trans h1 h2 ih1 ih2 =>
    obtain ⟨bs, b1, b2⟩ := ih2 hg
    obtain ⟨cs, c1, c2⟩ := ih1 b2
    exact ⟨cs, c1.trans b1, c2⟩

theorem mergeRuns_eq {bs : List AttributeRecord} {l : List NonresidentFields} (h : bs.map (·.nonresidentFields) = l.map some)
    (hd : ∀ a ∈ bs, Decoded a) (runs : List Run) : mergeRuns l runs = .ok (runs ++ bs.flatMap runsOf) := by
  induction bs generalizing l runs with
  | nil =>
    cases l with
    | nil => simp [mergeRuns]
    | cons => cases h
  | cons a rest ih =>
    cases l with
    | nil => cases h
    | cons e l =>
      injection h with h1 h2
      cases a with
      | resident => cases h1
      | nonresident t n pairs lo hi fs rs =>
        cases h1
        unfold mergeRuns
        have hdec : decodeMappingPairs pairs = .ok rs := hd (.nonresident t n pairs lo hi fs rs) (by simp) _ _ _ _ _ _ _ rfl
        rw [hdec]
        dsimp only
        rw [ih h2 (fun a ha => hd a (by simp [ha])), List.flatMap_cons, List.append_assoc]
        rfl

theorem mergeOne_merges {attrs : List AttributeRecord} (hd : ∀ a ∈ attrs, Decoded a) {a : AttributeRecord} (ha : a ∈ attrs)
    {base : NonresidentFields} (hb : a.nonresidentFields = some base) (h0 : base.lowestVcn = 0) :
    ∃ m, mergeOne ((attrs.filterMap (·.nonresidentFields)).filter fun e => e.lowestVcn ≠ 0) a base = .ok m ∧ Merges attrs a m := by
  cases a with
  | resident => cases hb
  | nonresident t n pairs lo hi fs runs =>
    cases hb
    dsimp only at h0
    subst h0
    unfold mergeOne
    dsimp only
    rw [further_fields]
    generalize hl : sortBy (fun e : NonresidentFields => (e.lowestVcn : Int))
      ((attrs.filter (IsFurther t (n.map utf16Decode))).filterMap (·.nonresidentFields)) = l
    have hperm : l.Perm _ := hl ▸ sortBy_perm _ _
    have hsort : l.Pairwise _ := hl ▸ sortBy_sorted (fun e : NonresidentFields => (e.lowestVcn : Int)) _
    obtain ⟨bs, b1, b2⟩ := perm_lift hperm (by
      intro x hx
      have := (List.mem_filter.1 hx).2
      cases x with
      | resident => cases this
      | nonresident => rfl)
    have hdb : ∀ x ∈ bs, Decoded x := fun x hx => hd x (List.mem_filter.1 (b1.subset hx)).1
    rcases List.eq_nil_or_concat bs with rfl | ⟨es, last, rfl⟩
    · have : l = [] := by simpa using b2.symm
      subst this
      exact ⟨_, rfl, t, n, pairs, hi, fs, runs, rfl, .inl ⟨b1.symm.eq_nil, rfl⟩⟩
    · rw [List.concat_eq_append] at *
      rw [List.map_append] at b2
      have hlen : l ≠ [] := by intro hc; subst hc; simp at b2
      rcases List.eq_nil_or_concat l with rfl | ⟨l', e, rfl⟩
      · exact absurd rfl hlen
      rw [List.concat_eq_append] at *
      have b2' := b2
      rw [List.map_append] at b2'
      obtain ⟨c1, c2⟩ := List.append_inj' b2' rfl
      injection c2 with c2 _
      rw [List.getLast?_concat]
      dsimp only
      rw [hd _ ha _ _ _ _ _ _ _ rfl]
      dsimp only
      rw [mergeRuns_eq (bs := es ++ [last]) (by rw [List.map_append]; exact b2) hdb]
      refine ⟨_, rfl, t, n, pairs, hi, fs, runs, rfl, .inr ⟨es, last, b1, ?_, ?_⟩⟩
      · have hlow : ∀ (x : AttributeRecord) (e : NonresidentFields), x.nonresidentFields = some e → lowest x = e.lowestVcn := by
          intro x e hx
          cases x with
          | resident => cases hx
          | nonresident => cases hx; rfl
        have key : (l' ++ [e]).map (·.lowestVcn) = (es ++ [last]).map lowest := by
          have hb : (es ++ [last]).map (·.nonresidentFields) = (l' ++ [e]).map some := by rw [List.map_append]; exact b2
          generalize es ++ [last] = p at hb
          generalize l' ++ [e] = q at hb
          induction p generalizing q with
          | nil => cases q with
            | nil => rfl
            | cons => cases hb
          | cons x xs ih => cases q with
            | nil => cases hb
            | cons y ys =>
              injection hb with k1 k2
              rw [List.map_cons, List.map_cons, ih _ k2, hlow x y k1]
        have hs : ((l' ++ [e]).map (·.lowestVcn)).Pairwise (· ≤ ·) := by
          rw [List.pairwise_map]
          refine hsort.imp ?_
          intro x y hxy
          omega
        rw [key, List.pairwise_map] at hs
        exact hs
      · cases last with
        | resident => cases c2
        | nonresident => cases c2; rfl

theorem mergeLoop_merges {attrs : List AttributeRecord} (hd : ∀ a ∈ attrs, Decoded a) {as : List AttributeRecord} (hs : ∀ a ∈ as, a ∈ attrs) :
    ∃ ms, mergeLoop ((attrs.filterMap (·.nonresidentFields)).filter fun e => e.lowestVcn ≠ 0) as = ⟨ms, none⟩ ∧
      AllMerge attrs (as.filter IsFirst) ms := by
  induction as with
  | nil => exact ⟨[], rfl, .nil⟩
  | cons a rest ih =>
    obtain ⟨ms, h1, h2⟩ := ih (fun x hx => hs x (by simp [hx]))
    unfold mergeLoop
    cases a with
    | resident t n v =>
      refine ⟨ms, h1, ?_⟩
      rw [List.filter_cons_of_neg (by simp [IsFirst])]
      exact h2
    | nonresident t n pairs lo hi fs runs =>
      dsimp only [AttributeRecord.nonresidentFields]
      by_cases h0 : lo = 0
      · rw [if_pos h0]
        obtain ⟨m, m1, m2⟩ := mergeOne_merges hd (hs (.nonresident t n pairs lo hi fs runs) (by simp)) (base := ⟨t, n.map utf16Decode, lo, hi, fs, pairs⟩) rfl h0
        dsimp only [AttributeRecord.nonresidentFields] at m1 h1
        rw [m1, h1]
        refine ⟨m :: ms, rfl, ?_⟩
        rw [List.filter_cons_of_pos (by simpa [IsFirst] using h0)]
        exact .cons m2 h2
      · rw [if_neg h0]
        refine ⟨ms, h1, ?_⟩
        rw [List.filter_cons_of_neg (by simpa [IsFirst] using h0)]
        exact h2

/-- C86: the merged attributes of a file record whose attributes can be read are its resident ones, as they are stored,
followed by one for each first extent, with the runs of all the extents of the same type and name in the order of
their VCNs; merging adds no exception. -/
theorem C86_merged (fr : FileRecord) (h : fr.attributes.err = none) :
    ∃ ms, fr.mergedAttributes = ⟨(fr.attributes.items.filter IsResident).map .stored ++ ms, none⟩ ∧
      AllMerge fr.attributes.items (fr.attributes.items.filter IsFirst) ms := by
  obtain ⟨ms, h1, h2⟩ := mergeLoop_merges (attributes_decoded fr) (as := fr.attributes.items) (fun a ha => ha)
  refine ⟨ms, ?_, h2⟩
  unfold FileRecord.mergedAttributes
  dsimp only
  rw [h1, h]
  have : (fun a : AttributeRecord => a.nonresidentFields.isNone) = IsResident := by
    funext a
    cases a <;> rfl
  rw [this]
  rfl

/-- C86: if they cannot be read, the resident ones before the damage are yielded and then the same exception is raised. -/
theorem C86_unreadable (fr : FileRecord) (e : Exc) (h : fr.attributes.err = some e) :
    fr.mergedAttributes = ⟨(fr.attributes.items.filter IsResident).map .stored, some e⟩ := by
  unfold FileRecord.mergedAttributes
  dsimp only
  rw [h]
  have : (fun a : AttributeRecord => a.nonresidentFields.isNone) = IsResident := by
    funext a
    cases a <;> rfl
  rw [this]
  rfl

/-! ### Agreement with the data runs of a stream -/

/-- `a` is a nonresident record of this type and name. -/
def IsOf (t : Nat) (name : Option Str) : AttributeRecord → Bool
  | .resident _ _ _ => false
  | .nonresident t' n _ _ _ _ _ => t' = t ∧ n.map utf16Decode = name

def toExtent : AttributeRecord → Extent
  | .resident _ _ _ => ⟨0, 0, 0, []⟩
  | .nonresident _ _ pairs lo hi fs _ => ⟨lo, hi, fs, pairs⟩

theorem extentsOf_map (attrs : List AttributeRecord) (name : Option Str) (t : Nat) :
    extentsOf attrs name t = (attrs.filter (IsOf t name)).map toExtent := by
  induction attrs with
  | nil => rfl
  | cons a rest ih =>
    unfold extentsOf at ih ⊢
    cases a with
    | resident => rw [List.filterMap_cons_none rfl, ih, List.filter_cons_of_neg (by simp [IsOf])]
    | nonresident t' n pairs lo hi fs runs =>
      by_cases h : t' = t ∧ n.map utf16Decode = name
      · rw [List.filterMap_cons_some (b := ⟨lo, hi, fs, pairs⟩) (by simp only; rw [if_pos h]), ih,
          List.filter_cons_of_pos (by simpa [IsOf] using h)]
        rfl
      · rw [List.filterMap_cons_none (by simp only; rw [if_neg h]), ih, List.filter_cons_of_neg (by simpa [IsOf] using h)]

theorem perm_map_lift {α β : Type} {f : α → β} {l : List β} {as : List α} (h : l.Perm (as.map f)) :
    ∃ bs : List α, bs.Perm as ∧ bs.map f = l := by
  generalize hg : as.map f = k at h
  induction h generalizing as with
  | nil => cases as with
    | nil => exact ⟨[], .nil, rfl⟩
    | cons => cases hg
  | cons x hp ih =>
    cases as with
    | nil => cases hg
    | cons a rest =>
      rw [List.map_cons] at hg
      injection hg with h1 h2
      obtain ⟨bs, b1, b2⟩ := ih h2
      exact ⟨a :: bs, b1.cons a, by rw [List.map_cons, b2, h1]⟩
  | swap x y l =>
    match as, hg with
    | a :: b :: rest, hg =>
      simp only [List.map_cons] at hg
      injection hg with h1 h2
      injection h2 with h2 h3
      exact ⟨b :: a :: rest, .swap _ _ _, by simp only [List.map_cons, h1, h2, h3]⟩
  | trans h1 h2 ih1 ih2 =>
    obtain ⟨bs, b1, b2⟩ := ih2 hg
    obtain ⟨cs, c1, c2⟩ := ih1 b2
    exact ⟨cs, c1.trans b1, c2⟩

theorem connected_runs {v : Int} {as : List AttributeRecord} {runs : List Run} (h : Connected v (as.map toExtent) runs)
    (hd : ∀ a ∈ as, Decoded a) (hn : ∀ a ∈ as, IsResident a = false) : runs = as.flatMap runsOf := by
  induction as generalizing v runs with
  | nil => cases h; rfl
  | cons a rest ih =>
    cases h with
    | @cons _ _ _ rs more hs hdec ht =>
      rw [ih ht (fun x hx => hd x (by simp [hx])) (fun x hx => hn x (by simp [hx])), List.flatMap_cons]
      congr 1
      cases a with
      | resident => have := hn _ (List.mem_cons_self ..); cases this
      | nonresident t n pairs lo hi fs rs' =>
        have h1 : decodeMappingPairs pairs = .ok rs' := hd (.nonresident t n pairs lo hi fs rs') (by simp) _ _ _ _ _ _ _ rfl
        have h2 : decodeMappingPairs pairs = .ok rs := hdec
        rw [h1] at h2
        cases h2
        rfl

theorem AllMerge_middle {attrs as : List AttributeRecord} {ms : List MergedAttribute} (h : AllMerge attrs as ms) {b c : List AttributeRecord}
    {a : AttributeRecord} (hs : as = b ++ a :: c) :
    ∃ mb m mc, ms = mb ++ m :: mc ∧ AllMerge attrs b mb ∧ Merges attrs a m ∧ AllMerge attrs c mc := by
  induction h generalizing b with
  | nil => cases b <;> cases hs
  | @cons x xs y ys head tail ih =>
    cases b with
    | nil =>
      cases hs
      exact ⟨[], y, ys, rfl, .nil, head, tail⟩
    | cons z zs =>
      rw [List.cons_append] at hs
      injection hs with h1 h2
      subst h1
      obtain ⟨mb, m, mc, e, k1, k2, k3⟩ := ih h2
      exact ⟨y :: mb, m, mc, by rw [e]; rfl, .cons head k1, k2, k3⟩

theorem Merges_stream {attrs : List AttributeRecord} {a : AttributeRecord} {m : MergedAttribute} (h : Merges attrs a m) {t : Nat} {name : Option Str}
    (hs : streamOf m = some (t, name)) : IsOf t name a = true := by
  obtain ⟨t', n, pairs, hi, fs, runs, rfl, ⟨-, rfl⟩ | ⟨es, last, -, -, rfl⟩⟩ := h
  · cases hs; simp [IsOf]
  · cases hs; simp [IsOf]

theorem AllMerge_stream {attrs as : List AttributeRecord} {ms : List MergedAttribute} (h : AllMerge attrs as ms) {t : Nat} {name : Option Str}
    (hn : ∀ a ∈ as, IsOf t name a = false) : ∀ m ∈ ms, streamOf m ≠ some (t, name) := by
  induction h with
  | nil => intro m hm; cases hm
  | cons head tail ih =>
    intro m hm hs
    rcases List.mem_cons.1 hm with rfl | hm
    · have := Merges_stream head hs
      rw [hn _ (by simp)] at this
      cases this
    · exact ih (fun a ha => hn a (by simp [ha])) m hm hs

/-- C87 (partial).  The full statement: merging yields an attribute with certain data runs for a stream exactly when
`get_data_runs` gives these data runs.  Proved: if `get_data_runs` gives data runs, then merging yields exactly one nonresident
attribute of the stream, with the same data runs (for extents that describe at least one cluster).  Missing: the
converse, which is false (`C87_gap_merged`, `C87_first_extent_lost`). -/
theorem C87_agrees_partial (fr : FileRecord) (name : Option Str) (useIndex : Bool) (runs : List Run)
    (h : fr.getDataRuns name useIndex = .ok (some runs))
    (hne : ∀ e ∈ extentsOf fr.attributes.items (wantedName name) (wantedType useIndex), decodeMappingPairs e.mappingPairs ≠ .ok []) :
    ∃ before m after, fr.mergedAttributes = ⟨before ++ m :: after, none⟩ ∧
      streamOf m = some (wantedType useIndex, wantedName name) ∧ mergedRuns m = runs ∧
      ∀ x ∈ before ++ after, streamOf x ≠ some (wantedType useIndex, wantedName name) := by
  have hno : fr.attributes.err = none := by
    unfold FileRecord.getDataRuns at h
    split at h
    · cases h
    · assumption
  obtain ⟨exts, p1, p2, p3⟩ := C11_runs_sound _ _ _ _ h
  obtain ⟨ms, m1, m2⟩ := C86_merged fr hno
  have hdec := attributes_decoded fr
  generalize fr.attributes.items = attrs at *
  generalize wantedType useIndex = t at *
  generalize wantedName name = nm at *
  rw [extentsOf_map] at p1 hne
  have hne' : ∀ e ∈ exts, decodeMappingPairs e.mappingPairs ≠ .ok [] := fun e he => hne e (p1.subset he)
  obtain ⟨i1, -⟩ := p3.increasing hne'
  obtain ⟨ys, y1, y2⟩ := perm_map_lift p1
  have hys : ∀ a ∈ ys, a ∈ attrs ∧ IsOf t nm a = true := fun a ha => List.mem_filter.1 (y1.subset ha)
  subst y2
  have hnon : ∀ a ∈ ys, IsResident a = false := by
    intro a ha
    have := (hys a ha).2
    cases a with
    | resident => cases this
    | nonresident => rfl
  have hruns := connected_runs p3 (fun a ha => hdec a (hys a ha).1) hnon
  cases ys with
  | nil => exact absurd rfl p2
  | cons y rest =>
    have hlow : ∀ a, IsResident a = false → (toExtent a).lowestVcn = lowest a := by
      intro a ha; cases a with
      | resident => cases ha
      | nonresident => rfl
    have hy0 : lowest y = 0 := by
      cases p3 with
      | cons hs _ _ =>
        rw [hlow y (hnon y (by simp))] at hs
        omega
    have hinc : (y :: rest).Pairwise (fun a b => lowest a < lowest b) := by
      rw [List.pairwise_map] at i1
      refine List.Pairwise.imp_of_mem ?_ i1
      intro a b ha hb hab
      rw [hlow a (hnon a ha), hlow b (hnon b hb)] at hab
      omega
    obtain ⟨j1, j2⟩ := List.pairwise_cons.1 hinc
    have hfirst : attrs.filter (fun a => IsFirst a && IsOf t nm a) = [y] := by
      rw [← List.filter_filter]
      have e1 : ((y :: rest).filter IsFirst).Perm ((attrs.filter (IsOf t nm)).filter IsFirst) := y1.filter _
      have e2 : (y :: rest).filter IsFirst = [y] := by
        rw [List.filter_cons_of_pos, List.filter_eq_nil_iff.2]
        · intro a ha hc
          have hpos := j1 a ha
          cases a with
          | resident => cases hc
          | nonresident t' n pairs lo hi fs rs =>
            have hlo : lo = 0 := by simpa [IsFirst] using hc
            have : lowest y < lo := hpos
            omega
        · have := hnon y (by simp)
          cases y with
          | resident => cases this
          | nonresident t' n pairs lo hi fs rs => simpa [IsFirst, lowest] using hy0
      rw [e2] at e1
      exact (List.singleton_perm.1 e1).symm
    have hfurther : rest.Perm (attrs.filter (IsFurther t nm)) := by
      have e0 : attrs.filter (IsFurther t nm) = (attrs.filter (IsOf t nm)).filter (fun a => decide (lowest a ≠ 0)) := by
        rw [List.filter_filter]
        apply List.filter_congr
        intro a _
        cases a with
        | resident => simp [IsFurther, IsOf]
        | nonresident =>
          rw [Bool.eq_iff_iff]
          simp [IsFurther, IsOf, lowest]
          intro _ _
          exact decide_eq_true_iff.symm
      rw [e0]
      have e1 : ((y :: rest).filter (fun a => decide (lowest a ≠ 0))).Perm _ := y1.filter (fun a => decide (lowest a ≠ 0))
      rw [List.filter_cons_of_neg (by simpa using hy0), List.filter_eq_self.2 (by
        intro a ha
        have := j1 a ha
        simp only [decide_eq_true_eq]
        omega)] at e1
      exact e1
    obtain ⟨b, c, hsplit⟩ : ∃ b c, attrs.filter IsFirst = b ++ y :: c := by
      have hm : y ∈ attrs.filter (fun a => IsFirst a && IsOf t nm a) := by rw [hfirst]; simp
      obtain ⟨ha, hb⟩ := List.mem_filter.1 hm
      simp only [Bool.and_eq_true] at hb
      exact List.append_of_mem (List.mem_filter.2 ⟨ha, hb.1⟩)
    have hothers : ∀ a ∈ b ++ c, IsOf t nm a = false := by
      have e3 : (attrs.filter IsFirst).filter (IsOf t nm) = [y] := by
        rw [List.filter_filter, ← hfirst]
        apply List.filter_congr
        intro a _
        exact Bool.and_comm _ _
      rw [hsplit, List.filter_append, List.filter_cons_of_pos (hys y (by simp)).2] at e3
      have hl := congrArg List.length e3
      simp only [List.length_append, List.length_cons, List.length_nil] at hl
      intro a ha
      rcases List.mem_append.1 ha with ha | ha
      · have := List.eq_nil_of_length_eq_zero (l := b.filter (IsOf t nm)) (by omega)
        simpa using List.filter_eq_nil_iff.1 this a ha
      · have := List.eq_nil_of_length_eq_zero (l := c.filter (IsOf t nm)) (by omega)
        simpa using List.filter_eq_nil_iff.1 this a ha
    obtain ⟨mb, m, mc, k0, k1, k2, k3⟩ := AllMerge_middle m2 hsplit
    have hof := (hys y (by simp)).2
    refine ⟨(attrs.filter IsResident).map .stored ++ mb, m, mc, by rw [m1, k0, List.append_assoc], ?_, ?_, ?_⟩
    · obtain ⟨t', n, pairs, hi, fs, rs, rfl, ⟨-, rfl⟩ | ⟨es, last, -, -, rfl⟩⟩ := k2 <;>
      · have hof' : t' = t ∧ n.map utf16Decode = nm := by simpa [IsOf] using hof
        simp [streamOf, hof'.1, hof'.2]
    · rw [hruns, List.flatMap_cons]
      obtain ⟨t', n, pairs, hi, fs, rs, rfl, hcase⟩ := k2
      have hof' : t' = t ∧ n.map utf16Decode = nm := by simpa [IsOf] using hof
      rw [hof'.1, hof'.2] at hcase
      rcases hcase with ⟨q1, rfl⟩ | ⟨es, last, q1, q2, rfl⟩
      · rw [q1] at hfurther
        rw [hfurther.eq_nil]
        simp [mergedRuns, runsOf]
      · have hp : (es ++ [last]).Perm rest := q1.trans hfurther.symm
        have hnd : (es ++ [last]).Pairwise (fun a b => lowest a ≠ lowest b) :=
          (hp.pairwise_iff (fun h e => h e.symm)).2 (j2.imp (fun h => by omega))
        have hlt : (es ++ [last]).Pairwise (fun a b => (lowest a : Int) < lowest b) := by
          refine (q2.and hnd).imp ?_
          intro a b hab
          omega
        have e1 := sortBy_eq_of_perm (fun a => (lowest a : Int)) (List.Perm.refl rest) (j2.imp (fun h => by omega))
        have e2 := sortBy_eq_of_perm (fun a => (lowest a : Int)) hp.symm hlt
        rw [← e2, e1]
        rfl
    · intro x hx
      rw [List.append_assoc] at hx
      rcases List.mem_append.1 hx with hx | hx
      · obtain ⟨a, ha, rfl⟩ := List.mem_map.1 hx
        have := (List.mem_filter.1 ha).2
        cases a with
        | resident => simp [streamOf]
        | nonresident => cases this
      · rcases List.mem_append.1 hx with hx | hx
        · exact AllMerge_stream k1 (fun a ha => hothers a (by simp [ha])) x hx
        · exact AllMerge_stream k3 (fun a ha => hothers a (by simp [ha])) x hx

/-- A file record of one segment with these attributes. -/
def mergeSample (attrs : List Bytes) : FileRecord :=
  match FileRecordSegment.init (mkSegment 7 1 1 0 0 attrs) true none with
  | .ok s => ⟨s, []⟩
  | .error _ => ⟨⟨[], 0, 0, false, none⟩, []⟩

/-- Three extents, stored in another order, and a resident attribute. -/
def threeExtents : FileRecord :=
  mergeSample [mkExtent 0x80 5 6 0 [0x11, 2, 9, 0], mkExtent 0x80 0 2 4096 [0x11, 3, 4, 0], mkAttr 0x10 [1, 2, 3], mkExtent 0x80 3 4 0 [0x11, 2, 20, 0]]

example : threeExtents.attributes.err = none ∧ threeExtents.mergedAttributes =
    ⟨[.stored (.resident 0x10 none [1, 2, 3]), .merged 0x80 none 6 4096 [(some 4, 3), (some 20, 2), (some 9, 2)]], none⟩ := by decide +kernel
example : threeExtents.getDataRuns = .ok (some [(some 4, 3), (some 20, 2), (some 9, 2)]) ∧
    ∀ e ∈ extentsOf threeExtents.attributes.items (wantedName none) (wantedType false), decodeMappingPairs e.mappingPairs ≠ .ok [] := by
  decide +kernel
example : (mergeSample [mkAttr 0x10 [1, 2, 3], mkExtent 0x80 0 2 4096 [0x11, 0, 4, 0]]).attributes.err ≠ none := by decide +kernel

/-- C87 is false of the code: extents with a gap between them are merged as if they were connected (the cluster 5 of the
volume becomes the virtual cluster 2 of the file, although its record says 7), where `get_data_runs` raises. -/
theorem C87_gap_merged : ∃ fr : FileRecord, fr.getDataRuns = .error .MappingPairsException ∧
    fr.mergedAttributes = ⟨[.merged 0x80 none 8 4096 [(some 4, 2), (some 5, 2)]], none⟩ :=
  ⟨mergeSample [mkExtent 0x80 0 1 4096 [0x11, 2, 4, 0], mkExtent 0x80 7 8 0 [0x11, 2, 5, 0]], by decide +kernel⟩

/-- C87 is false of the code: an attribute whose first extent is missing is dropped without notice, where
`get_data_runs` raises. -/
theorem C87_first_extent_lost : ∃ fr : FileRecord, fr.getDataRuns = .error .MappingPairsException ∧
    fr.attributes.items ≠ [] ∧ fr.mergedAttributes = ⟨[], none⟩ :=
  ⟨mergeSample [mkExtent 0x80 7 8 0 [0x11, 2, 5, 0]], by decide +kernel⟩

end Verif.Props
