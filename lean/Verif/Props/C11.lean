/-
Property C11: data runs of a file (dfir_ntfs/MFT.py:812-885).
-/
import Verif.Proof.FileRecord
namespace Verif.Props
open Verif.MFT Verif.Spec.FileRecord

/-- C11 (soundness): a reported run list is the concatenation of the run lists of exactly the matching
extents, in an order in which they connect from VCN 0 on without gaps. -/
theorem C11_runs_sound (fr : FileRecord) (name : Option Str) (useIndex : Bool) (runs : List Run)
    (h : fr.getDataRuns name useIndex = .ok (some runs)) :
    ∃ exts, exts.Perm (extentsOf fr.attributes.items (wantedName name) (wantedType useIndex)) ∧
      exts ≠ [] ∧ Connected 0 exts runs := by
  have hno : fr.attributes.err = none := by
    unfold FileRecord.getDataRuns at h
    split at h
    · cases h
    · assumption
  rw [getDataRuns_eq _ _ _ hno] at h
  split at h
  · cases h
  rename_i hne
  generalize hm : extentsOf fr.attributes.items (wantedName name) (wantedType useIndex) = m at *
  cases ha : assembleLoop (sortBy (fun e => (e.lowestVcn : Int)) m) none 0 [] with
  | error e => rw [ha] at h; cases h
  | ok rs =>
    rw [ha] at h
    cases h
    obtain ⟨more, hc, hr⟩ := assembleLoop_sound _ _ _ _ _ ha
    refine ⟨_, sortBy_perm (fun e => (Extent.lowestVcn e : Int)) m, ?_, ?_⟩
    · intro hc
      have := sortBy_perm (fun e => (Extent.lowestVcn e : Int)) m
      rw [hc] at this
      exact hne this.symm.eq_nil
    · rw [hr, List.nil_append]; exact hc

theorem assembleLoop_size (exts : List Extent) (fs : Option Int) (v : Int) (acc runs : List Run)
    (h : assembleLoop exts fs v acc = .ok runs) (hr : runs = []) :
    ∃ s, s ≤ 0 ∧ (fs = some s ∨ (fs = none ∧ ∃ e, exts.find? (·.lowestVcn = 0) = some e ∧ e.fileSize = s)) := by
  induction exts generalizing fs v acc with
  | nil =>
    unfold assembleLoop at h
    split at h
    · cases h
    · rename_i s
      split at h
      · cases h
      · rename_i hn
        cases h
        refine ⟨s, ?_, .inl rfl⟩
        rw [hr] at hn
        simp only [List.length_nil, and_true] at hn
        omega
  | cons e rest ih =>
    unfold assembleLoop at h
    split at h
    · cases h
    split at h
    · cases h
    obtain ⟨s, h1, h2⟩ := ih _ _ _ h
    refine ⟨s, h1, ?_⟩
    by_cases hfs : fs = none
    · by_cases he : e.lowestVcn = 0
      · rw [if_pos ⟨hfs, he⟩] at h2
        rcases h2 with h2 | h2
        · cases h2
          exact .inr ⟨hfs, e, List.find?_cons_of_pos (by simpa using he), rfl⟩
        · cases h2.1
      · rw [if_neg (fun h => he h.2)] at h2
        rcases h2 with h2 | ⟨h2, e', h3, h4⟩
        · exact .inl h2
        · exact .inr ⟨h2, e', by rw [List.find?_cons_of_neg (by simpa using he)]; exact h3, h4⟩
    · rw [if_neg (fun h => hfs h.1)] at h2
      rcases h2 with h2 | h2
      · exact .inl h2
      · exact absurd h2.1 hfs

/-- C11: an empty run list is reported only for a file whose size is zero (the size that the first of
the extents with the lowest VCN 0 records). -/
theorem C11_no_runs_no_size (fr : FileRecord) (name : Option Str) (useIndex : Bool)
    (h : fr.getDataRuns name useIndex = .ok (some [])) :
    ∃ e ∈ extentsOf fr.attributes.items (wantedName name) (wantedType useIndex), e.lowestVcn = 0 ∧ e.fileSize ≤ 0 := by
  have hno : fr.attributes.err = none := by
    unfold FileRecord.getDataRuns at h
    split at h
    · cases h
    · assumption
  rw [getDataRuns_eq _ _ _ hno] at h
  split at h
  · cases h
  generalize hm : extentsOf fr.attributes.items (wantedName name) (wantedType useIndex) = m at *
  cases ha : assembleLoop (sortBy (fun e => (e.lowestVcn : Int)) m) none 0 [] with
  | error e => rw [ha] at h; cases h
  | ok rs =>
    rw [ha] at h
    cases h
    obtain ⟨s, h1, h2⟩ := assembleLoop_size _ _ _ _ _ ha rfl
    rcases h2 with h2 | ⟨-, e, h2, h3⟩
    · cases h2
    · refine ⟨e, mem_sortBy.mp (List.mem_of_find?_eq_some h2), ?_, by omega⟩
      have := List.find?_some h2
      simpa using this

/-- C11: a file of one extent that describes no cluster: an empty list when the size is zero, an exception
otherwise. -/
theorem C11_single_empty_extent (fr : FileRecord) (name : Option Str) (useIndex : Bool) (e : Extent) (hno : fr.attributes.err = none)
    (he : extentsOf fr.attributes.items (wantedName name) (wantedType useIndex) = [e]) (h0 : e.lowestVcn = 0)
    (hd : decodeMappingPairs e.mappingPairs = .ok []) :
    fr.getDataRuns name useIndex = if e.fileSize ≤ 0 then .ok (some []) else .error .MappingPairsException := by
  rw [getDataRuns_eq _ _ _ hno, he, if_neg (by simp)]
  show (assembleLoop [e] none 0 []).map some = _
  unfold assembleLoop
  rw [if_neg (by rw [h0]; decide), hd]
  dsimp only
  rw [if_pos ⟨rfl, h0⟩]
  unfold assembleLoop
  dsimp only
  by_cases hs : e.fileSize ≤ 0
  · rw [if_pos hs, if_neg (by omega)]; rfl
  · rw [if_neg hs, if_pos ⟨by omega, rfl⟩]; rfl

/-- C11: the size of the data is the one recorded by the first extent (in storage order) that starts at the
VCN 0; without one there is no size, or the exception that ended the enumeration is raised. -/
theorem C11_data_size (fr : FileRecord) (name : Option Str) (useIndex : Bool) :
    (∀ before e after, extentsOf fr.attributes.items (wantedName name) (wantedType useIndex) = before ++ e :: after →
      (∀ x ∈ before, x.lowestVcn ≠ 0) → e.lowestVcn = 0 → fr.getDataSize name useIndex = .ok (some e.fileSize)) ∧
    ((∀ x ∈ extentsOf fr.attributes.items (wantedName name) (wantedType useIndex), x.lowestVcn ≠ 0) →
      fr.getDataSize name useIndex = match fr.attributes.err with | some e => .error e | none => .ok none) := by
  unfold FileRecord.getDataSize
  rw [extentsOf_eq]
  constructor
  · intro before e after h1 h2 h3
    rw [h1, List.find?_append, List.find?_eq_none.mpr (fun x hx => by simpa using h2 x hx), Option.none_or,
      List.find?_cons_of_pos (by simpa using h3)]
  · intro h
    rw [List.find?_eq_none.mpr (fun x hx => by simpa using h x hx)]
    cases fr.attributes.err <;> rfl

/-- C11 (completeness): if the matching extents, each describing at least one cluster, connect in
some order, then whatever the storage order is, the runs in that order are reported. -/
theorem C11_runs_complete (fr : FileRecord) (name : Option Str) (useIndex : Bool) (exts : List Extent) (runs : List Run)
    (hno : fr.attributes.err = none)
    (hperm : (extentsOf fr.attributes.items (wantedName name) (wantedType useIndex)).Perm exts) (hex : exts ≠ [])
    (hne : ∀ e ∈ exts, decodeMappingPairs e.mappingPairs ≠ .ok []) (hc : Connected 0 exts runs) :
    fr.getDataRuns name useIndex = .ok (some runs) := by
  rw [getDataRuns_eq _ _ _ hno]
  generalize extentsOf fr.attributes.items (wantedName name) (wantedType useIndex) = m at *
  rw [if_neg (by intro h; rw [h] at hperm; exact hex hperm.symm.eq_nil),
    sortBy_eq_of_perm _ hperm (hc.increasing hne).1,
    assembleLoop_complete hc none [] (.inr ⟨rfl, hex⟩) (by simpa using hc.runs_ne hne hex)]
  rfl

/-- C11: if the matching extents connect in no order, the parser raises `MappingPairsException`
instead of returning a list. -/
theorem C11_disconnected_raises (fr : FileRecord) (name : Option Str) (useIndex : Bool)
    (hno : fr.attributes.err = none)
    (hex : extentsOf fr.attributes.items (wantedName name) (wantedType useIndex) ≠ [])
    (hdis : ∀ exts runs, exts.Perm (extentsOf fr.attributes.items (wantedName name) (wantedType useIndex)) →
      ¬ Connected 0 exts runs) :
    fr.getDataRuns name useIndex = .error .MappingPairsException := by
  cases h : fr.getDataRuns name useIndex with
  | ok r =>
    cases r with
    | none => rw [getDataRuns_eq _ _ _ hno, if_neg hex] at h
              generalize assembleLoop _ _ _ _ = z at h
              cases z <;> cases h
    | some runs =>
      obtain ⟨exts, hp, -, hc⟩ := C11_runs_sound _ _ _ _ h
      exact absurd hc (hdis exts runs hp)
  | error e =>
    rw [getDataRuns_eq _ _ _ hno, if_neg hex] at h
    generalize hz : assembleLoop _ _ _ _ = z at h
    cases z with
    | ok r => cases h
    | error e' =>
      cases h
      rw [assembleLoop_error _ _ _ _ _ (.inr ⟨rfl, ?_⟩) hz]
      intro hc
      have := sortBy_perm (fun e => (Extent.lowestVcn e : Int)) (extentsOf fr.attributes.items (wantedName name) (wantedType useIndex))
      rw [hc] at this
      exact hex this.symm.eq_nil

/-- C11: the storage order of the attribute records does not matter (as long as no extent is
empty). -/
theorem C11_order_independent (fr₁ fr₂ : FileRecord) (name : Option Str) (useIndex : Bool)
    (hno₁ : fr₁.attributes.err = none) (hno₂ : fr₂.attributes.err = none)
    (hperm : fr₁.attributes.items.Perm fr₂.attributes.items)
    (hne : ∀ e ∈ extentsOf fr₁.attributes.items (wantedName name) (wantedType useIndex),
      decodeMappingPairs e.mappingPairs ≠ .ok []) :
    fr₁.getDataRuns name useIndex = fr₂.getDataRuns name useIndex := by
  have hp : (extentsOf fr₁.attributes.items (wantedName name) (wantedType useIndex)).Perm
      (extentsOf fr₂.attributes.items (wantedName name) (wantedType useIndex)) := hperm.filterMap _
  by_cases hex : extentsOf fr₁.attributes.items (wantedName name) (wantedType useIndex) = []
  · have hex₂ := hex; rw [hex] at hp
    have := hp.symm.eq_nil
    rw [getDataRuns_eq _ _ _ hno₁, getDataRuns_eq _ _ _ hno₂, if_pos hex, if_pos this]
  · by_cases hcon : ∃ exts runs, exts.Perm (extentsOf fr₁.attributes.items (wantedName name) (wantedType useIndex)) ∧
        Connected 0 exts runs
    · obtain ⟨exts, runs, hpe, hc⟩ := hcon
      have hexne : exts ≠ [] := by intro h; rw [h] at hpe; exact hex hpe.symm.eq_nil
      have hne' : ∀ e ∈ exts, decodeMappingPairs e.mappingPairs ≠ .ok [] := fun e he => hne e (hpe.mem_iff.1 he)
      rw [C11_runs_complete fr₁ name useIndex exts runs hno₁ hpe.symm hexne hne' hc,
        C11_runs_complete fr₂ name useIndex exts runs hno₂ (hp.symm.trans hpe.symm) hexne hne' hc]
    · rw [C11_disconnected_raises fr₁ name useIndex hno₁ hex (fun exts runs hpe hc => hcon ⟨exts, runs, hpe, hc⟩),
        C11_disconnected_raises fr₂ name useIndex hno₂ (by intro h; rw [h] at hp; exact hex hp.eq_nil)
          (fun exts runs hpe hc => hcon ⟨exts, runs, hpe.trans hp.symm, hc⟩)]

/-- C11: nothing is reported exactly when no attribute record matches. -/
theorem C11_none_iff (fr : FileRecord) (name : Option Str) (useIndex : Bool) (hno : fr.attributes.err = none) :
    fr.getDataRuns name useIndex = .ok none ↔
      extentsOf fr.attributes.items (wantedName name) (wantedType useIndex) = [] := by
  rw [getDataRuns_eq _ _ _ hno]
  constructor
  · intro h
    split at h
    · assumption
    · generalize assembleLoop _ _ _ _ = z at h
      cases z <;> cases h
  · intro h; rw [if_pos h]

/-- The hypothesis on empty extents in C11 is needed: with an extent that describes no cluster the
storage order decides between a result and an exception. -/
theorem C11_empty_extent_order_matters :
    assembleLoop (sortBy (fun e => (Extent.lowestVcn e : Int)) [⟨0, 0, 5, [0]⟩, ⟨0, 0, 5, [0x11, 1, 7, 0]⟩]) none 0 []
      = .ok [(some 7, 1)] ∧
    assembleLoop (sortBy (fun e => (Extent.lowestVcn e : Int)) [⟨0, 0, 5, [0x11, 1, 7, 0]⟩, ⟨0, 0, 5, [0]⟩]) none 0 []
      = .error .MappingPairsException := by decide +kernel

/-- An unnamed nonresident `$DATA` attribute record of 72 bytes, for examples. -/
def demoExtent (lowest highest size : Nat) (pairs : Bytes) : Bytes :=
  [0x80, 0, 0, 0, 72, 0, 0, 0, 1, 0, 0, 0, 0, 0, 0, 0] ++ natLE 8 lowest ++ natLE 8 highest ++ [64, 0] ++ zeros 6 ++
    natLE 8 size ++ natLE 8 size ++ natLE 8 size ++ pairs ++ zeros (8 - pairs.length)

/-- A file record segment object with these attribute records, for examples. -/
def demoSegment (attrs : List Bytes) : FileRecordSegment :=
  ⟨zeros 20 ++ [56, 0, 1, 0] ++ natLE 4 (56 + attrs.flatten.length + 8) ++ natLE 4 1024 ++ zeros 24 ++ attrs.flatten ++
    [0xFF, 0xFF, 0xFF, 0xFF, 0, 0, 0, 0], 48, 3, false, none⟩

/-- C11 is not vacuous: the second extent is stored in the base segment and the first one in a child. -/
def demoFile : FileRecord :=
  ⟨demoSegment [demoExtent 3 4 0 [0x11, 2, 40, 0]], [demoSegment [demoExtent 0 2 5000 [0x11, 3, 20, 0]]]⟩
example : demoFile.getDataRuns = .ok (some [(some 20, 3), (some 40, 2)]) ∧ demoFile.getDataSize = .ok (some 5000) := by
  decide +kernel
example : demoFile.attributes.err = none ∧ extentsOf demoFile.attributes.items none 0x80 =
    [⟨3, 4, 0, [0x11, 2, 40, 0, 0, 0, 0, 0]⟩, ⟨0, 2, 5000, [0x11, 3, 20, 0, 0, 0, 0, 0]⟩] := by decide +kernel

/-- The same for the extents alone: two extents stored in the reverse order. -/
example : assembleLoop (sortBy (fun e => (Extent.lowestVcn e : Int))
    [⟨3, 4, 0, [0x11, 2, 40, 0]⟩, ⟨0, 2, 5000, [0x11, 3, 20, 0]⟩]) none 0 []
      = .ok [(some 20, 3), (some 40, 2)] := by decide +kernel
example : Connected 0 [⟨0, 2, 5000, [0x11, 3, 20, 0]⟩, ⟨3, 4, 0, [0x11, 2, 40, 0]⟩] [(some 20, 3), (some 40, 2)] :=
  .cons (rs := [(some 20, 3)]) rfl (by decide +kernel)
    (.cons (rs := [(some 40, 2)]) (by decide) (by decide +kernel) (.nil _))

end Verif.Props
