/-
The report on a log file: the remaining blocks of lines, and whole sections.
-/
import Verif.Proof.LogReport
namespace Verif.Proof.LogReport
open Verif.MFT Verif.Attributes Verif.Scripts Verif.Spec.Parser Verif.Spec.LogReport
open Verif.LogFile (redoOperation undoOperation redoData undoData targetAttribute targetBlockSize mftTargetNumber offsetInTarget lcnsForPage
  findFileReference findName nonresidentUpdates residentUpdates)

/-! ### New attributes -/

theorem created_iff (b redo undo a : Bytes)
    (h : redoOperation b = 0x05 ∨ undoOperation b = 0x05 ∨ redoOperation b = 0x04 ∨ undoOperation b = 0x04) :
    createdAttribute b redo undo = a ↔ NewAttribute b redo undo a := by
  have r5 : Redoes b ["CreateAttribute"] ↔ redoOperation b = 0x05 := create_iff _
  have u5 : Undoes b ["CreateAttribute"] ↔ undoOperation b = 0x05 := create_iff _
  have r4 : Redoes b ["WriteEndOfFileRecordSegment"] ↔ redoOperation b = 0x04 := writeEnd_iff _
  have u4 : Undoes b ["WriteEndOfFileRecordSegment"] ↔ undoOperation b = 0x04 := writeEnd_iff _
  have d5 : Does b ["CreateAttribute"] ↔ redoOperation b = 0x05 ∨ undoOperation b = 0x05 := or_congr r5 u5
  have d4 : Does b ["WriteEndOfFileRecordSegment"] ↔ redoOperation b = 0x04 ∨ undoOperation b = 0x04 := or_congr r4 u4
  unfold createdAttribute
  by_cases h1 : redoOperation b = 0x05
  · rw [if_pos h1]
    constructor
    · rintro rfl; exact .redo (r5.2 h1)
    · intro x
      cases x with
      | redo => rfl
      | undo x => exact absurd (r5.2 h1) x
      | longer x => exact absurd (d5.2 (.inl h1)) x
      | notLonger x => exact absurd (d5.2 (.inl h1)) x
  · rw [if_neg h1]
    by_cases h2 : undoOperation b = 0x05
    · rw [if_pos h2]
      constructor
      · rintro rfl; exact .undo (fun x => h1 (r5.1 x)) (u5.2 h2)
      · intro x
        cases x with
        | redo x => exact absurd (r5.1 x) h1
        | undo => rfl
        | longer x => exact absurd (d5.2 (.inr h2)) x
        | notLonger x => exact absurd (d5.2 (.inr h2)) x
    · rw [if_neg h2]
      have h4 : Does b ["WriteEndOfFileRecordSegment"] := d4.2 (by omega)
      have h5 : ¬ Does b ["CreateAttribute"] := fun x => by have := d5.1 x; omega
      by_cases hl : redo.length > undo.length
      · rw [if_pos hl]
        constructor
        · rintro rfl; exact .longer h5 h4 hl
        · intro x
          cases x with
          | redo => rfl
          | undo _ x => exact absurd (u5.1 x) h2
          | longer => rfl
          | notLonger _ _ x => exact absurd x (by omega)
      · rw [if_neg hl]
        constructor
        · rintro rfl; exact .notLonger h5 h4 (by omega)
        · intro x
          cases x with
          | redo x => exact absurd (r5.1 x) h1
          | undo => rfl
          | longer _ _ x => exact absurd x hl
          | notLonger => rfl

theorem newAttribute_of {b redo undo a : Bytes} (h : NewAttribute b redo undo a) :
    redoOperation b = 0x05 ∨ undoOperation b = 0x05 ∨ redoOperation b = 0x04 ∨ undoOperation b = 0x04 := by
  cases h with
  | redo h => exact .inl ((create_iff _).1 h)
  | undo _ h => exact .inr (.inl ((create_iff _).1 h))
  | longer _ h => rcases h with h | h
                  · exact .inr (.inr (.inl ((writeEnd_iff _).1 h)))
                  · exact .inr (.inr (.inr ((writeEnd_iff _).1 h)))
  | notLonger _ h => rcases h with h | h
                     · exact .inr (.inr (.inl ((writeEnd_iff _).1 h)))
                     · exact .inr (.inr (.inr ((writeEnd_iff _).1 h)))

theorem create_block_iff (p : MFT.Parser) (b redo undo : Bytes) (l : List Str) :
    Yields (createLines p b redo undo) l ↔ IsCreateBlock p b redo undo l := by
  unfold createLines
  by_cases h : redoOperation b = 0x05 ∨ undoOperation b = 0x05 ∨ redoOperation b = 0x04 ∨ undoOperation b = 0x04
  · rw [if_pos h]
    have hc := fun a => created_iff b redo undo a h
    generalize createdAttribute b redo undo = a at hc
    have ha : NewAttribute b redo undo a := (hc a).1 rfl
    dsimp only
    have e1 : u16 a 20 = field a 20 2 := rfl
    have e2 : u32 a 16 = field a 16 4 := rfl
    have e3 : u32 a 0 = field a 0 4 := rfl
    rw [e1, e2, e3]
    by_cases hv : HasValue a (slice a (field a 20 2) (field a 20 2 + field a 16 4))
    · obtain ⟨v1, v2, v3, v4, v5, -⟩ := hv
      rw [if_pos (by omega), if_pos ⟨v2, v3, v4⟩, if_pos (by rw [slice_length]; omega), yields_lines, value_iff]
      constructor
      · intro hl; exact .value a _ l ha ⟨v1, v2, v3, v4, v5, rfl⟩ hl
      · intro x
        cases x with
        | value a' v _ h hv hl =>
          have := (hc a').2 h
          subst this
          rw [hv.2.2.2.2.2] at hl; exact hl
        | none x => exact absurd ⟨v1, v2, v3, v4, v5, rfl⟩ (x a _ ha)
    · have hnone : Yields (if a.length ≥ 24 then
          if field a 20 2 > 0 ∧ field a 20 2 % 8 = 0 ∧ field a 16 4 > 0 then
            if (slice a (field a 20 2) (field a 20 2 + field a 16 4)).length = field a 16 4 then
              linesOr (valueLines p (field a 0 4) (slice a (field a 20 2) (field a 20 2 + field a 16 4))) else .done
          else .done else .done) l ↔ l = [] := by
        by_cases c1 : a.length ≥ 24
        · rw [if_pos c1]
          by_cases c2 : field a 20 2 > 0 ∧ field a 20 2 % 8 = 0 ∧ field a 16 4 > 0
          · rw [if_pos c2]
            by_cases c3 : (slice a (field a 20 2) (field a 20 2 + field a 16 4)).length = field a 16 4
            · exact absurd ⟨by omega, c2.1, c2.2.1, c2.2.2, by rw [slice_length] at c3; omega, rfl⟩ hv
            · rw [if_neg c3]; exact yields_done l
          · rw [if_neg c2]; exact yields_done l
        · rw [if_neg c1]; exact yields_done l
      rw [hnone]
      constructor
      · rintro rfl
        refine .none fun a' v h' hv' => hv ?_
        have := (hc a').2 h'
        subst this
        exact hv'.2.2.2.2.2 ▸ hv'
      · intro x
        cases x with
        | value a' v _ h hv' hl =>
          have := (hc a').2 h
          subst this
          exact absurd (hv'.2.2.2.2.2 ▸ hv') hv
        | none => rfl
  · rw [if_neg h, yields_done]
    constructor
    · rintro rfl; exact .none fun a v hn _ => h (newAttribute_of hn)
    · intro x
      cases x with
      | value a v _ hn => exact absurd (newAttribute_of hn) h
      | none => rfl

/-! ### Updates of `$STANDARD_INFORMATION` -/

theorem partialTime_eq (d : Bytes) (o i : Nat) : filetimeText ((PartialInformation.init d o).timeAt i) = partialTime d o i := by
  unfold PartialInformation.timeAt PartialInformation.init partialTime
  dsimp only
  have hz : (zeros o ++ d).length = o + d.length := by simp [zeros]
  by_cases h : o ≤ i ∧ i + 8 ≤ o + d.length
  · rw [if_pos (by rw [hz]; omega), if_pos h]
    unfold Spec.LogReport.time field u64
    have : slice (zeros o ++ d) i (i + 8) = slice d (i - o) (i - o + 8) := by
      unfold slice
      rw [List.drop_append, List.drop_of_length_le (by simp [zeros]; omega), List.nil_append]
      congr 1
      · omega
      · congr 1; simp [zeros]
    rw [this]
  · rw [if_neg (by rw [hz]; omega), if_neg h]; rfl

theorem partialTime_zero (d : Bytes) (o : Nat) : filetimeText (PartialInformation.init d o).ctime = partialTime d o 0 := by
  rw [← partialTime_eq]
  unfold PartialInformation.ctime PartialInformation.timeAt
  have : (PartialInformation.init d o).offset = 0 ↔ (PartialInformation.init d o).offset ≤ 0 := by omega
  simp only [this, Nat.zero_add]

theorem partialLines_eq (title : String) (d : Bytes) (o : Nat) : partialLines title d o = partialBlock title d o := by
  unfold partialLines partialBlock
  by_cases h : 8 ≤ d.length
  · rw [if_pos h, if_pos h]
    dsimp only
    rw [timeLines_eq, partialTime_zero]
    unfold PartialInformation.mtime PartialInformation.atime PartialInformation.etime
    rw [partialTime_eq, partialTime_eq, partialTime_eq]
    rfl
  · rw [if_neg h, if_neg h]

theorem update_iff (b redo undo : Bytes) (o : Option Int) (l : List Str) : updateLines b redo undo o = l ↔ IsUpdateBlock b redo undo o l := by
  have hop : Does b ["UpdateResidentValue"] ↔ redoOperation b = 0x07 ∨ undoOperation b = 0x07 := or_congr (updateResident_iff _) (updateResident_iff _)
  have hnone : (¬ ∃ start x : Nat, Does b ["UpdateResidentValue"] ∧ firstValue (targetSize b) = some start ∧ o = some (start + x : Int) ∧ x ≤ 32) →
      ([] = l ↔ IsUpdateBlock b redo undo o l) := by
    intro hn
    constructor
    · rintro rfl
      exact .none fun hd start x hs ho => Nat.lt_of_not_le fun hx => hn ⟨start, x, hd, hs, ho, hx⟩
    · intro h
      cases h with
      | update start x hd hs ho hx => exact absurd ⟨start, x, hd, hs, ho, hx⟩ hn
      | none => rfl
  unfold updateLines
  cases o with
  | none => exact hnone fun ⟨_, _, _, _, h, _⟩ => by cases h
  | some o =>
    dsimp only
    by_cases hd : redoOperation b = 0x07 ∨ undoOperation b = 0x07
    · rw [if_pos hd, segmentSize_eq]
      by_cases hs : targetSize b = 1024 ∨ targetSize b = 4096
      · rw [if_pos hs]
        have hfirst : ∃ start : Nat, firstValue (targetSize b) = some start ∧ (if targetSize b = 4096 then 72 + 24 else 56 + 24 : Int) = start := by
          unfold firstValue
          rcases hs with hs | hs
          · exact ⟨80, by rw [if_pos hs], by rw [if_neg (by omega)]; rfl⟩
          · exact ⟨96, by rw [if_neg (by omega), if_pos hs], by rw [if_pos hs]; rfl⟩
        obtain ⟨start, hf, he⟩ := hfirst
        rw [he]
        by_cases hr : o ≥ (start : Int) ∧ o ≤ start + 32
        · rw [if_pos hr, partialLines_eq, partialLines_eq]
          have ho : o = start + ((o - start).toNat : Int) := by omega
          constructor
          · rintro rfl
            exact .update start (o - start).toNat (hop.2 hd) hf (by rw [← ho]) (by omega)
          · intro h
            cases h with
            | update s x _ hs' ho' hx =>
              rw [hf] at hs'
              cases hs'
              have : (o - start).toNat = x := by have := Option.some.inj ho'; omega
              rw [this]
            | none h => exact absurd (h (hop.2 hd) start (o - start).toNat hf (by rw [← ho])) (by omega)
        · rw [if_neg hr]
          refine hnone fun ⟨s, x, _, hs', ho, hx⟩ => hr ?_
          rw [hf] at hs'
          cases hs'
          have := Option.some.inj ho
          omega
      · rw [if_neg hs]
        refine hnone fun ⟨s, x, _, hs', _, _⟩ => hs ?_
        unfold firstValue at hs'
        split at hs'
        · exact .inl (by assumption)
        · split at hs'
          · exact .inr (by assumption)
          · cases hs'
    · rw [if_neg hd]
      exact hnone fun ⟨_, _, h, _⟩ => hd (hop.1 h)

/-! ### Index entries -/

theorem newEntry_unique {b redo undo d d' : Bytes} (h : NewEntry b redo undo d) (h' : NewEntry b redo undo d') : d = d' := by
  cases h with
  | redo h => cases h' with
    | redo => rfl
    | undo x => exact absurd h x
  | undo h => cases h' with
    | redo x => exact absurd x h
    | undo => rfl

theorem entry_iff (p : MFT.Parser) (b redo undo : Bytes) (l : List Str) : Yields (indexLines p b redo undo) l ↔ IsEntryBlock p b redo undo l := by
  have hr : Redoes b addIndexEntry ↔ addsIndexEntry (redoOperation b) = true := addIndexEntry_iff _
  have hu : Undoes b addIndexEntry ↔ addsIndexEntry (undoOperation b) = true := addIndexEntry_iff _
  unfold indexLines
  by_cases h : (addsIndexEntry (redoOperation b) || addsIndexEntry (undoOperation b)) = true
  · rw [if_pos h]
    have hd : NewEntry b redo undo (if addsIndexEntry (redoOperation b) then redo else undo) := by
      by_cases h1 : addsIndexEntry (redoOperation b) = true
      · rw [if_pos h1]; exact .redo (hr.2 h1)
      · rw [if_neg h1]
        refine .undo (fun x => h1 (hr.1 x)) (hu.2 ?_)
        rw [Bool.or_eq_true] at h
        exact h.resolve_left h1
    generalize (if addsIndexEntry (redoOperation b) then redo else undo) = d at hd
    have hdoes : ¬ ¬ Does b addIndexEntry := by
      rw [Bool.or_eq_true] at h
      exact fun hx => hx (h.elim (fun x => .inl (hr.2 x)) (fun x => .inr (hu.2 x)))
    dsimp only
    by_cases h14 : 14 ≤ d.length
    · rw [Props.attribute_ok (e := ⟨0, d⟩) h14, andThen_ok]
      dsimp only
      cases hv : Spec.MftTable.entryName d with
      | none =>
        dsimp only
        rw [yields_done]
        constructor
        · rintro rfl; exact .empty d hd h14 (fun v hv' => by rw [hv] at hv'; cases hv')
        · intro x
          cases x with
          | name d' v _ hd' _ hv' => cases newEntry_unique hd hd'; rw [hv] at hv'; cases hv'
          | empty => rfl
          | other => rfl
      | some v =>
        dsimp only
        by_cases hl : v.length > 66
        · rw [if_pos hl, yields_lines, name_iff]
          constructor
          · intro x; exact .name d v l hd h14 hv hl x
          · intro x
            cases x with
            | name d' v' _ hd' _ hv' _ hb => cases newEntry_unique hd hd'; rw [hv] at hv'; cases hv'; exact hb
            | empty d' hd' _ hv' => cases newEntry_unique hd hd'; have := hv' v hv; omega
            | other x => exact absurd x hdoes
        · rw [if_neg hl, yields_done]
          constructor
          · rintro rfl; exact .empty d hd h14 (fun v' hv' => by rw [hv] at hv'; cases hv'; omega)
          · intro x
            cases x with
            | name d' v' _ hd' _ hv' hl' => cases newEntry_unique hd hd'; rw [hv] at hv'; cases hv'; omega
            | empty => rfl
            | other => rfl
    · have herr : ∃ e, (IndexEntry.attribute ⟨0, d⟩) = .error e := by
        cases ha : IndexEntry.attribute ⟨0, d⟩ with
        | error e => exact ⟨e, rfl⟩
        | ok a =>
          unfold IndexEntry.attribute IndexEntry.attributeLength IndexEntry.flags at ha
          cases h1 : unpackLE 2 (slice d 10 12) with
          | error x => rw [h1] at ha; cases ha
          | ok n =>
            cases h2 : unpackLE 2 (slice d 12 14) with
            | error x => rw [h1, h2] at ha; cases ha
            | ok fl =>
              have := (Props.unpack_of_ok h2).1
              rw [slice_length] at this
              omega
      obtain ⟨e, he⟩ := herr
      rw [he]
      constructor
      · intro x; cases x.1
      · intro x
        cases x with
        | name d' v _ hd' h' => cases newEntry_unique hd hd'; omega
        | empty d' hd' h' => cases newEntry_unique hd hd'; omega
        | other x => exact absurd x hdoes
  · rw [if_neg h, yields_done]
    rw [Bool.or_eq_true] at h
    have hnot : ∀ d, ¬ NewEntry b redo undo d := by
      intro d x
      cases x with
      | redo x => exact h (.inl (hr.1 x))
      | undo _ x => exact h (.inr (hu.1 x))
    constructor
    · rintro rfl
      refine .other ?_
      rintro (x | x)
      · exact h (.inl (hr.1 x))
      · exact h (.inr (hu.1 x))
    · intro x
      cases x with
      | name d _ _ hd => exact absurd hd (hnot d)
      | empty => rfl
      | other => rfl

/-! ### Duplicated information -/

theorem duplicated_eq (title : String) (d : Bytes) : duplicatedLines title d = .ok (duplicatedBlock title d) := by
  unfold duplicatedLines duplicatedBlock diMtime diAtime diCtime diEtime
  by_cases h : d.length = 56
  · rw [if_pos h, if_pos h, Props.timeField_ok (by omega), Props.timeField_ok (by omega), Props.timeField_ok (by omega), Props.timeField_ok (by omega)]
    rfl
  · rw [if_neg h, if_neg h]; rfl

theorem duplicated_iff (b redo undo : Bytes) (l : List Str) : Yields (fileNameUpdateLines b redo undo) l ↔ IsDuplicatedBlock b redo undo l := by
  have hr : Redoes b updateFileName ↔ updatesFileName (redoOperation b) = true := updateFileName_iff _
  have hu : Undoes b updateFileName ↔ updatesFileName (undoOperation b) = true := updateFileName_iff _
  unfold fileNameUpdateLines IsDuplicatedBlock
  rw [yields_append]
  refine exists_congr fun x => exists_congr fun y => ?_
  have h1 : Yields (if updatesFileName (redoOperation b) then linesOr (duplicatedLines "Update to duplicated information (redo data):" redo) else .done) x ↔
      (Redoes b updateFileName → x = duplicatedBlock "Update to duplicated information (redo data):" redo) ∧ (¬ Redoes b updateFileName → x = []) := by
    rw [hr]
    by_cases h : updatesFileName (redoOperation b) = true
    · rw [if_pos h, yields_lines, duplicated_eq, Except.ok.injEq]
      exact ⟨fun e => ⟨fun _ => e.symm, fun hn => absurd h hn⟩, fun e => (e.1 h).symm⟩
    · rw [if_neg h, yields_done]
      exact ⟨fun e => ⟨fun hn => absurd hn h, fun _ => e⟩, fun e => e.2 h⟩
  have h2 : Yields (if updatesFileName (undoOperation b) then linesOr (duplicatedLines "Update to duplicated information (undo data):" undo) else .done) y ↔
      (Undoes b updateFileName → y = duplicatedBlock "Update to duplicated information (undo data):" undo) ∧ (¬ Undoes b updateFileName → y = []) := by
    rw [hu]
    by_cases h : updatesFileName (undoOperation b) = true
    · rw [if_pos h, yields_lines, duplicated_eq, Except.ok.injEq]
      exact ⟨fun e => ⟨fun _ => e.symm, fun hn => absurd h hn⟩, fun e => (e.1 h).symm⟩
    · rw [if_neg h, yields_done]
      exact ⟨fun e => ⟨fun hn => absurd hn h, fun _ => e⟩, fun e => e.2 h⟩
  rw [h1, h2]
  exact ⟨fun ⟨⟨a, b⟩, ⟨c, d⟩, e⟩ => ⟨e, a, b, c, d⟩, fun ⟨e, a, b, c, d⟩ => ⟨⟨a, b⟩, ⟨c, d⟩, e⟩⟩

/-! ### The change journal -/

open Verif.Spec.USN (ValidRecord recordOf)

theorem valid_slice {d : Bytes} {n : Nat} (hn : n ≤ d.length) (h : ValidRecord (d.take n)) : slice d 0 (field d 0 4) = d.take n := by
  have hl := h.length
  have hlen : (d.take n).length = n := by rw [List.length_take]; omega
  have h4 : 4 ≤ n := by
    have := h.version; rw [hlen] at this; omega
  have e : slice (d.take n) 0 4 = slice d 0 4 := by
    unfold slice
    simp only [List.drop_zero, List.take_take]
    congr 1; omega
  rw [e, hlen] at hl
  unfold field
  rw [show slice d 0 (0 + 4) = slice d 0 4 from rfl, hl]
  unfold slice
  simp

theorem getUsn_iff (d : Bytes) (r : USN.Record) : USN.getUsnRecord d = .ok r ↔
    ValidRecord (slice d 0 (field d 0 4)) ∧ r = recordOf (slice d 0 (field d 0 4)) := by
  rw [USN.getUsnRecord_iff]
  constructor
  · rintro ⟨n, hn, h, rfl⟩
    rw [valid_slice hn h]; exact ⟨h, rfl⟩
  · rintro ⟨h, rfl⟩
    have hs : slice d 0 (field d 0 4) = d.take (min (field d 0 4) d.length) := by
      unfold slice
      rw [List.drop_zero, Nat.sub_zero, List.take_eq_take_iff]
      omega
    refine ⟨min (field d 0 4) d.length, by omega, ?_, ?_⟩
    · rw [← hs]; exact h
    · rw [hs]

theorem usn_iff (d : Bytes) (l : List Str) : usnLines d = .ok l ↔ IsJournalBlock d l := by
  unfold usnLines
  by_cases hv : ValidRecord (slice d 0 (field d 0 4))
  · rw [(getUsn_iff d _).2 ⟨hv, rfl⟩]
    generalize hr : slice d 0 (field d 0 4) = r at hv
    obtain ⟨f1, f2, f3, f4, f5⟩ := Props.record_fields r hv
    dsimp only
    by_cases h4 : Spec.UsnTable.version r = 4
    · have hrec : recordOf r = .v4 r := by
        unfold Spec.UsnTable.version at h4
        unfold recordOf; rw [if_neg (by omega), if_neg (by omega)]
      have hlines : ∀ l, (IsJournalBlock d l ↔ l = [Str.ofString "USN record (version 4):",
          line " Number: " (digits (Spec.UsnTable.usn r)),
          line " Source: " (Verif.USN.resolveSourceCodes (Spec.UsnTable.source r)), line " Reason: " (Verif.USN.resolveReasonCodes (Spec.UsnTable.reason r)),
          line " File reference number: " (digits (Spec.UsnTable.file r)), line " Parent file reference number: " (digits (Spec.UsnTable.parent r)), []]) := by
        intro l
        constructor
        · intro x
          cases x with
          | invalid x => rw [hr] at x; exact absurd hv x
          | record r' hr' => rw [hr] at hr'; subst hr'; rw [if_pos h4, if_pos h4]; rfl
        · rintro rfl
          have := IsJournalBlock.record (d := d) r hr.symm hv (.inl h4)
          rw [if_pos h4, if_pos h4] at this
          exact this
      rw [hlines]
      rw [hrec] at f1 f2 f3 f4 f5 ⊢
      simp only [f1, f2, f3, f4, f5, bind, Except.bind, pure, Except.pure, Except.ok.injEq, decimal_eq]
      exact eq_comm
    · have ht := Props.record_timestamp r hv h4
      have hn := Props.record_name r hv h4
      have hrec : ∃ v3, recordOf r = .v2or3 v3 r := by
        have hl := hv.version
        unfold Spec.UsnTable.version at h4
        unfold recordOf
        by_cases h2 : leNat (slice r 4 6) = 2
        · exact ⟨false, by rw [if_pos h2]⟩
        · exact ⟨true, by rw [if_neg h2, if_pos (by omega)]⟩
      obtain ⟨v3, hrec⟩ := hrec
      by_cases hin : Spec.UsnTable.nameLength r = 0 ∨ Spec.UsnTable.nameOffset r + Spec.UsnTable.nameLength r ≤ r.length
      · rw [if_pos hin] at hn
        have hlines : ∀ l, (IsJournalBlock d l ↔ l = [Str.ofString "USN record:",
            line " Number: " (digits (Spec.UsnTable.usn r)),
            line " Source: " (Verif.USN.resolveSourceCodes (Spec.UsnTable.source r)), line " Reason: " (Verif.USN.resolveReasonCodes (Spec.UsnTable.reason r)),
            line " File reference number: " (digits (Spec.UsnTable.file r)), line " Parent file reference number: " (digits (Spec.UsnTable.parent r)),
            line " Timestamp: " (filetimeText (decodeFiletime (Spec.UsnTable.timestamp r))),
            line " File name: " (utf16Decode (slice r (Spec.UsnTable.nameOffset r) (Spec.UsnTable.nameOffset r + Spec.UsnTable.nameLength r))), []]) := by
          intro l
          constructor
          · intro x
            cases x with
            | invalid x => rw [hr] at x; exact absurd hv x
            | record r' hr' => rw [hr] at hr'; subst hr'; rw [if_neg h4, if_neg h4]; rfl
          · rintro rfl
            have := IsJournalBlock.record (d := d) r hr.symm hv (.inr hin)
            rw [if_neg h4, if_neg h4] at this
            exact this
        rw [hlines]
        rw [hrec] at f1 f2 f3 f4 f5 ht hn ⊢
        simp only [f1, f2, f3, f4, f5, ht, hn, bind, Except.bind, pure, Except.pure, Except.ok.injEq, decimal_eq]
        exact eq_comm
      · rw [if_neg hin] at hn
        rw [hrec] at f1 f2 f3 f4 f5 ht hn ⊢
        simp only [f1, f2, f3, f4, f5, ht, hn, bind, Except.bind]
        constructor
        · intro x; cases x
        · intro x
          cases x with
          | invalid x => rw [hr] at x; exact absurd hv x
          | record r' hr' _ hn' =>
            rw [hr] at hr'; subst hr'
            rcases hn' with hn' | hn'
            · exact absurd hn' h4
            · exact absurd hn' hin
  · cases hg : USN.getUsnRecord d with
    | ok r => exact absurd ((getUsn_iff d r).1 hg).1 hv
    | error e =>
      dsimp only
      rw [if_pos (by rcases USN.getUsnRecord_error hg with h | h; exact .inr h; exact .inl h)]
      constructor
      · intro x; cases x; exact .invalid hv
      · intro x
        cases x with
        | invalid => rfl
        | record r hr h => exact absurd (hr ▸ h) hv

theorem shownName_iff (name : Option Str) : shownName name = Str.ofString "$J" ↔ name = some (Str.ofString "$J") := by
  unfold shownName
  cases name with
  | none =>
    refine ⟨fun h => ?_, (fun h => by cases h)⟩
    exact absurd h (by decide)
  | some s => simp

theorem journal_iff (b redo undo : Bytes) (t : Target) (l : List Str) :
    Yields (journalLines b redo undo t) l ↔ IsJournalUpdate b redo undo (targetName t) l := by
  have hr : Redoes b ["UpdateNonresidentValue"] ↔ redoOperation b = 0x08 := updateNonresident_iff _
  have hu : Undoes b ["UpdateNonresidentValue"] ↔ undoOperation b = 0x08 := updateNonresident_iff _
  have hnone : targetName t ≠ some (Str.ofString "$J") → (l = [] ↔ IsJournalUpdate b redo undo (targetName t) l) := by
    intro hn
    unfold IsJournalUpdate
    constructor
    · rintro rfl
      exact ⟨[], [], rfl, fun x => absurd x.1 hn, fun _ => rfl, fun x => absurd x.1 hn, fun _ => rfl⟩
    · rintro ⟨x, y, rfl, -, h1, -, h2⟩
      rw [h1 fun x => hn x.1, h2 fun x => hn x.1]; rfl
  unfold journalLines
  cases t with
  | number n => exact (yields_done l).trans (hnone (by unfold targetName; simp))
  | unknown => exact (yields_done l).trans (hnone (by unfold targetName; simp))
  | reference r name =>
    dsimp only
    by_cases hj : shownName name = Str.ofString "$J"
    · rw [if_pos hj]
      have hj' : targetName (.reference r name) = some (Str.ofString "$J") := (shownName_iff name).1 hj
      rw [hj', yields_append]
      unfold IsJournalUpdate
      refine exists_congr fun x => exists_congr fun y => ?_
      have h1 : Yields (if redoOperation b = 0x08 then linesOr (usnLines redo) else .done) x ↔
          (some (Str.ofString "$J") = some (Str.ofString "$J") ∧ Redoes b ["UpdateNonresidentValue"] → IsJournalBlock redo x) ∧
          (¬ (some (Str.ofString "$J") = some (Str.ofString "$J") ∧ Redoes b ["UpdateNonresidentValue"]) → x = []) := by
        rw [hr]
        by_cases h : redoOperation b = 0x08
        · rw [if_pos h, yields_lines, usn_iff]
          exact ⟨fun e => ⟨fun _ => e, fun hn => absurd ⟨rfl, h⟩ hn⟩, fun e => e.1 ⟨rfl, h⟩⟩
        · rw [if_neg h, yields_done]
          exact ⟨fun e => ⟨fun hn => absurd hn.2 h, fun _ => e⟩, fun e => e.2 fun x => h x.2⟩
      have h2 : Yields (if undoOperation b = 0x08 then linesOr (usnLines undo) else .done) y ↔
          (some (Str.ofString "$J") = some (Str.ofString "$J") ∧ Undoes b ["UpdateNonresidentValue"] → IsJournalBlock undo y) ∧
          (¬ (some (Str.ofString "$J") = some (Str.ofString "$J") ∧ Undoes b ["UpdateNonresidentValue"]) → y = []) := by
        rw [hu]
        by_cases h : undoOperation b = 0x08
        · rw [if_pos h, yields_lines, usn_iff]
          exact ⟨fun e => ⟨fun _ => e, fun hn => absurd ⟨rfl, h⟩ hn⟩, fun e => e.1 ⟨rfl, h⟩⟩
        · rw [if_neg h, yields_done]
          exact ⟨fun e => ⟨fun hn => absurd hn.2 h, fun _ => e⟩, fun e => e.2 fun x => h x.2⟩
      rw [h1, h2]
      exact ⟨fun ⟨⟨a, b⟩, ⟨c, d⟩, e⟩ => ⟨e, a, b, c, d⟩, fun ⟨e, a, b, c, d⟩ => ⟨⟨a, b⟩, ⟨c, d⟩, e⟩⟩
    · rw [if_neg hj, yields_done]
      exact hnone fun x => hj ((shownName_iff name).2 x)

/-! ### Sections -/

theorem head_eq (b : Bytes) (lsn tid : Nat) : headLines b lsn tid = head b lsn tid := by
  unfold headLines head
  rw [show redoOperation b = field b 0 2 from rfl, show undoOperation b = field b 2 2 from rfl, operation_eq (field_lt b 0), operation_eq (field_lt b 2),
    decimal_eq, decimal_eq]
  simp only [line, List.append_assoc]

theorem data_eq (b redo undo : Bytes) : dataLines (clusters b) redo undo = clusterLines b ++ dumps redo undo := by
  unfold dataLines clusterLines dumps
  have hl : (clusters b).length = field b 14 2 := by unfold clusters; simp
  congr 1
  by_cases h : field b 14 2 = 0
  · rw [if_pos h, if_neg (by omega)]
  · rw [if_neg h, if_pos (by omega), spaced_eq]
    have : (clusters b).map signedDecimal = (clusters b).map signed := List.map_congr_left fun x _ => signedDecimal_eq x
    rw [this]; rfl

theorem deletion_iff (config : LogFile.Config) (b : Bytes) (x : Option Str) :
    (if redoOperation b = 0x03 then some (match mftTargetNumber b config.clusterSize with
          | some n => signedDecimal n
          | none => Str.ofString "unknown") else none) = x ↔ IsDeletion config b x := by
  have hop : Redoes b ["DeallocateFileRecordSegment"] ↔ redoOperation b = 0x03 := deallocate_iff _
  unfold IsDeletion
  by_cases h : redoOperation b = 0x03
  · rw [if_pos h]
    have hd : Does b onSegments := (doesSegments_iff b).2 (.inl (by rw [h]; decide))
    cases hn : mftTargetNumber b config.clusterSize with
    | none => exact absurd hd ((number_none _ _).1 hn)
    | some n =>
      obtain ⟨-, h1, h2⟩ := (number_iff _ _ _).1 hn
      dsimp only
      rw [signedDecimal_eq]
      constructor
      · rintro rfl; exact .inl ⟨hop.2 h, n, h1, h2, rfl⟩
      · rintro (⟨-, m, g1, g2, rfl⟩ | ⟨hx, -⟩)
        · have := (number_iff b config.clusterSize m).2 ⟨hd, g1, g2⟩
          rw [hn] at this
          rw [Option.some.inj this]
        · exact absurd (hop.2 h) hx
  · rw [if_neg h]
    constructor
    · rintro rfl; exact .inr ⟨fun x => h (hop.1 x), rfl⟩
    · rintro (⟨hx, -⟩ | ⟨-, rfl⟩)
      · exact absurd (hop.1 hx) h
      · rfl

theorem record_iff (p : MFT.Parser) (config : LogFile.Config) (i : LogFile.Item) (b : Bytes) (lsn tid : Nat) (l : List Str) (x : Option Str) :
    recordLines p config i b lsn tid = .ok (l, x) ↔ IsRecord p config i b lsn tid l x := by
  classical
  unfold recordLines
  constructor
  · intro h
    cases hr : redoData b with
    | error e => rw [hr] at h; cases h
    | ok redo =>
    cases hu : undoData b with
    | error e => rw [hr, hu] at h; cases h
    | ok undo =>
    cases ht : targetLines p b (target config i b) with
    | error e => rw [hr, hu] at h; simp only [bind, Except.bind, ht] at h; cases h
    | ok tl =>
    rw [hr, hu] at h
    simp only [bind, Except.bind, ht, lcns_eq] at h
    have hdata : Data b redo undo := ⟨(redoData_iff _ _).1 hr, (undoData_iff _ _).1 hu⟩
    have htarget := (target_iff p config i b tl _).1 ⟨ht, rfl⟩
    have hoff := (offset_iff config b _).1 rfl
    by_cases hc : ClustersInside b
    · rw [if_pos hc] at h
      dsimp only at h
      split at h
      · cases h
      · rename_i hnone
        have hy : Yields ((initializeLines p b redo).append ((createLines p b redo undo).append
          ((⟨updateLines b redo undo (offsetInTarget b config.clusterSize), none⟩ : Gen Str).append ((indexLines p b redo undo).append
          ((fileNameUpdateLines b redo undo).append (journalLines b redo undo (target config i b))))))) _ := ⟨hnone, rfl⟩
        rw [yields_append] at hy
        obtain ⟨l1, r1, y1, hy, e1⟩ := hy
        rw [yields_append] at hy
        obtain ⟨l2, r2, y2, hy, e2⟩ := hy
        rw [yields_append] at hy
        obtain ⟨l3, r3, y3, hy, e3⟩ := hy
        rw [yields_append] at hy
        obtain ⟨l4, r4, y4, hy, e4⟩ := hy
        rw [yields_append] at hy
        obtain ⟨l5, l6, y5, y6, e5⟩ := hy
        have hpair : (headLines b lsn tid ++ (tl ++ [offsetLine (offsetInTarget b config.clusterSize)]) ++ (dataLines (clusters b) redo undo ++ _), _) = (l, x) :=
          Except.ok.inj h
        rw [e1, e2, e3, e4, e5] at hpair
        have hl := (Prod.mk.inj hpair).1
        have hx := (Prod.mk.inj hpair).2
        have := IsRecord.complete (lsn := lsn) (transaction := tid) redo undo tl _ _ l1 l2 l3 l4 l5 l6 x hdata htarget hoff hc ((segment_iff _ _ _ _).1 y1)
          ((create_block_iff _ _ _ _ _).1 y2) ((update_iff _ _ _ _ _).1 y3.2) ((entry_iff _ _ _ _ _).1 y4)
          ((duplicated_iff _ _ _ _).1 y5) ((journal_iff _ _ _ _ _).1 y6) ((deletion_iff config b x).1 hx)
        rw [← hl, head_eq, offsetLine_eq, data_eq]
        simp only [List.append_assoc] at this ⊢
        exact this
    · rw [if_neg hc] at h
      dsimp only at h
      cases h
      rw [head_eq, offsetLine_eq]
      have := IsRecord.truncated (lsn := lsn) (transaction := tid) redo undo tl _ _ hdata htarget hoff hc
      simp only [List.append_assoc] at this ⊢
      exact this
  · intro h
    cases h with
    | truncated redo undo tl name o hd ht ho hc =>
      obtain ⟨ht, -⟩ := (target_iff _ _ _ _ _ _).2 ht
      have ho := (offset_iff _ _ _).2 ho
      rw [(redoData_iff _ _).2 hd.1, (undoData_iff _ _).2 hd.2]
      simp only [bind, Except.bind, ht, ho, lcns_eq, if_neg hc, head_eq, offsetLine_eq, List.append_assoc]
      rfl
    | complete redo undo tl name o l1 l2 l3 l4 l5 l6 _ hd ht ho hc h1 h2 h3 h4 h5 h6 hx =>
      obtain ⟨ht, hname⟩ := (target_iff _ _ _ _ _ _).2 ht
      have ho := (offset_iff _ _ _).2 ho
      rw [(redoData_iff _ _).2 hd.1, (undoData_iff _ _).2 hd.2]
      simp only [bind, Except.bind, ht, ho, lcns_eq, if_pos hc]
      have hy : Yields ((initializeLines p b redo).append ((createLines p b redo undo).append
          ((⟨updateLines b redo undo o, none⟩ : Gen Str).append ((indexLines p b redo undo).append
          ((fileNameUpdateLines b redo undo).append (journalLines b redo undo (target config i b))))))) (l1 ++ (l2 ++ (l3 ++ (l4 ++ (l5 ++ l6))))) := by
        rw [yields_append]
        refine ⟨_, _, (segment_iff _ _ _ _).2 h1, ?_, rfl⟩
        rw [yields_append]
        refine ⟨_, _, (create_block_iff _ _ _ _ _).2 h2, ?_, rfl⟩
        rw [yields_append]
        refine ⟨_, _, ⟨rfl, (update_iff _ _ _ _ _).2 h3⟩, ?_, rfl⟩
        rw [yields_append]
        refine ⟨_, _, (entry_iff _ _ _ _ _).2 h4, ?_, rfl⟩
        rw [yields_append]
        exact ⟨_, _, (duplicated_iff _ _ _ _).2 h5, (journal_iff _ _ _ _ _).2 (by rw [hname]; exact h6), rfl⟩
      rw [hy.1, hy.2]
      dsimp only
      rw [head_eq, offsetLine_eq, data_eq]
      refine (congrArg (fun y => (Except.ok (_, y) : Except Exc (List Str × Option Str))) ((deletion_iff config b x).2 hx)).trans ?_
      simp only [List.append_assoc]

theorem item_iff (p : MFT.Parser) (config : LogFile.Config) (i : LogFile.Item) (l : List Str) (x : Option Str) :
    itemLines p config i = .ok (l, x) ↔ IsItem p config i l x := by
  unfold itemLines IsItem
  cases i.decoded with
  | restartArea b lsn =>
    dsimp only
    rw [area_eq]
    constructor
    · intro h; cases h; exact ⟨rfl, rfl⟩
    · rintro ⟨rfl, rfl⟩; rfl
  | logRecord b lsn tid => exact record_iff p config i b lsn tid l x

end Verif.Proof.LogReport
