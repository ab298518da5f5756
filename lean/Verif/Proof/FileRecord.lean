import Verif.Spec.FileRecord
import Verif.Props.C01_C04
namespace Verif.MFT
open Verif.Spec.FileRecord

theorem assembleLoop_sound (exts : List Extent) (fs : Option Int) (v : Int) (acc runs : List Run)
    (h : assembleLoop exts fs v acc = .ok runs) : ∃ more, Connected v exts more ∧ runs = acc ++ more := by
  induction exts generalizing fs v acc with
  | nil =>
    unfold assembleLoop at h
    split at h
    · cases h
    split at h
    · cases h
    · cases h; exact ⟨[], .nil _, by simp⟩
  | cons e rest ih =>
    unfold assembleLoop at h
    split at h
    · cases h
    rename_i hst
    split at h
    · cases h
    rename_i rs hd
    obtain ⟨more, hc, hr⟩ := ih _ _ _ h
    exact ⟨rs ++ more, .cons (by omega) hd hc, by rw [hr, List.append_assoc]⟩

theorem assembleLoop_complete {exts : List Extent} {v : Int} {more : List Run} (h : Connected v exts more)
    (fs : Option Int) (acc : List Run) (hfs : fs ≠ none ∨ (v = 0 ∧ exts ≠ [])) (hne : acc ++ more ≠ []) :
    assembleLoop exts fs v acc = .ok (acc ++ more) := by
  induction h generalizing fs acc with
  | nil v =>
    unfold assembleLoop
    cases fs with
    | none => simp at hfs
    | some s =>
      dsimp only
      rw [if_neg]
      · simp
      · intro hc
        apply hne
        have := List.length_eq_zero_iff.1 hc.2
        simp [this]
  | @cons v e rest rs more hstart hdec hrest ih =>
    unfold assembleLoop
    rw [if_neg (by omega), hdec]
    dsimp only
    rw [← List.append_assoc] at hne ⊢
    apply ih _ _ _ hne
    left
    cases fs with
    | none =>
      have : e.lowestVcn = 0 := by
        rcases hfs with h | ⟨h, -⟩
        · exact absurd rfl h
        · omega
      simp [this]
    | some s => simp

theorem assembleLoop_error (exts : List Extent) (fs : Option Int) (v : Int) (acc : List Run) (e : Exc)
    (hfs : fs ≠ none ∨ (v = 0 ∧ exts ≠ [])) (h : assembleLoop exts fs v acc = .error e) : e = .MappingPairsException := by
  induction exts generalizing fs v acc with
  | nil =>
    unfold assembleLoop at h
    split at h
    · simp at hfs
    split at h
    · cases h; rfl
    · cases h
  | cons x rest ih =>
    unfold assembleLoop at h
    split at h
    · cases h; rfl
    rename_i hst
    split at h
    · cases h; rename_i hd; exact Props.C03_mapping_pairs_only_exception _ _ hd
    · refine ih _ _ _ ?_ h
      left
      cases fs with
      | none =>
        have : x.lowestVcn = 0 := by
          rcases hfs with h | ⟨h, -⟩
          · exact absurd rfl h
          · omega
        simp [this]
      | some s => simp

theorem clusters_nonneg {bs : Bytes} {rs : List Run} (h : decodeMappingPairs bs = .ok rs) : 0 ≤ clusters rs := by
  have hp := Props.C03_lengths_positive bs rs h
  unfold clusters
  clear h
  induction rs with
  | nil => simp
  | cons r rest ih =>
    simp only [List.map_cons, List.sum_cons]
    have := hp r (by simp)
    have := ih (fun r hr => hp r (by simp [hr]))
    omega

theorem clusters_pos {bs : Bytes} {rs : List Run} (h : decodeMappingPairs bs = .ok rs) (hne : rs ≠ []) : 0 < clusters rs := by
  have hp := Props.C03_lengths_positive bs rs h
  unfold clusters
  clear h
  induction rs with
  | nil => exact absurd rfl hne
  | cons r rest ih =>
    simp only [List.map_cons, List.sum_cons]
    have h1 := hp r (by simp)
    cases rest with
    | nil => simp; omega
    | cons r' rest' =>
      have := ih (by simp) (fun r hr => hp r (by simp [hr]))
      omega

/-- Connected, nonempty extents are strictly increasing. -/
theorem _root_.Verif.Spec.FileRecord.Connected.increasing {v : Int} {exts : List Extent} {runs : List Run} (h : Connected v exts runs)
    (hne : ∀ e ∈ exts, decodeMappingPairs e.mappingPairs ≠ .ok []) :
    exts.Pairwise (fun a b => (a.lowestVcn : Int) < b.lowestVcn) ∧ ∀ e ∈ exts, v ≤ e.lowestVcn := by
  induction h with
  | nil => exact ⟨List.Pairwise.nil, by simp⟩
  | @cons v e rest rs more hstart hdec hrest ih =>
    obtain ⟨i1, i2⟩ := ih (fun x hx => hne x (by simp [hx]))
    have hpos : 0 < clusters rs := clusters_pos hdec (by
      intro hc; rw [hc] at hdec; exact hne e (by simp) hdec)
    refine ⟨List.pairwise_cons.2 ⟨?_, i1⟩, ?_⟩
    · intro b hb
      have := i2 b hb
      omega
    · intro x hx
      rcases List.mem_cons.1 hx with rfl | hx
      · omega
      · have := i2 x hx
        omega

theorem _root_.Verif.Spec.FileRecord.Connected.runs_ne {v : Int} {exts : List Extent} {runs : List Run} (h : Connected v exts runs)
    (hne : ∀ e ∈ exts, decodeMappingPairs e.mappingPairs ≠ .ok []) (hex : exts ≠ []) : runs ≠ [] := by
  cases h with
  | nil => exact absurd rfl hex
  | @cons _ e rest rs more hstart hdec hrest =>
    intro hc
    have : rs = [] := (List.append_eq_nil_iff.1 hc).1
    rw [this] at hdec
    exact hne e (by simp) hdec

theorem extentsOf_eq (fr : FileRecord) (name : Option Str) (useIndex : Bool) :
    fr.attributes.items.filterMap (matchExtent (normalizeName name) useIndex) =
      extentsOf fr.attributes.items (wantedName name) (wantedType useIndex) := by
  unfold extentsOf
  congr 1
  funext a
  cases a <;> rfl

theorem getDataRuns_eq (fr : FileRecord) (name : Option Str) (useIndex : Bool) (hno : fr.attributes.err = none) :
    fr.getDataRuns name useIndex =
      if extentsOf fr.attributes.items (wantedName name) (wantedType useIndex) = [] then .ok none
      else (assembleLoop (sortBy (fun e => (e.lowestVcn : Int))
        (extentsOf fr.attributes.items (wantedName name) (wantedType useIndex))) none 0 []).map some := by
  unfold FileRecord.getDataRuns
  rw [hno, extentsOf_eq]
  dsimp only
  by_cases h : extentsOf fr.attributes.items (wantedName name) (wantedType useIndex) = []
  · rw [if_pos h, h]; rfl
  · rw [if_neg h, if_neg]
    intro hc; exact h (List.length_eq_zero_iff.1 hc)

end Verif.MFT
