/-
Property C97: the table that `ntfs_parser --usn` writes.
-/
import Verif.Model.Scripts.Tables
import Verif.Spec.UsnTable
import Verif.Props.C16_C20
import Verif.Props.C28_C31
namespace Verif.Props
open Verif.MFT Verif.USN Verif.Spec.Parser Verif.Scripts Verif.Spec.USN
open Verif.Spec (UsnTable.PathFor UsnTable.NameInside)

/-- The row of a record: the texts of the flags are those of C30. -/
def usnCells (b : Bytes) (path : Str) : Row :=
  [.int (Spec.UsnTable.usn b), .str (resolveSourceCodes (Spec.UsnTable.source b)), .str (resolveReasonCodes (Spec.UsnTable.reason b)),
   .int (Spec.UsnTable.file b), .int (Spec.UsnTable.parent b),
   .str (if Spec.UsnTable.version b = 4 then [] else filetimeText (Attributes.decodeFiletime (Spec.UsnTable.timestamp b))),
   .str (if Spec.UsnTable.version b = 4 then [] else
     utf16Decode (slice b (Spec.UsnTable.nameOffset b) (Spec.UsnTable.nameOffset b + Spec.UsnTable.nameLength b))),
   .str path]

theorem lookupPath_ok {file : Bytes} {p : MFT.Parser} (hp : Parser.init file true = .ok p) (reference : Nat) (o : Option Str)
    (h : lookupPath p (number reference) (some (sequence reference)) = .ok o) : UsnTable.PathFor p reference (o.getD []) := by
  unfold lookupPath at h
  cases hg : p.getRecord (number reference) (some (sequence reference)) with
  | error e =>
    rw [hg] at h
    dsimp only at h
    have he : o = none := by
      split at h
      · cases h; rfl
      · cases h
    subst he
    exact .inr ⟨rfl, fun r hr => by rw [hg] at hr; cases hr⟩
  | ok r =>
    rw [hg] at h
    dsimp only at h
    unfold fullPaths at h
    cases hb : p.buildFullPaths r with
    | none => exact absurd hb (C18_paths_terminate file p hp r)
    | some x =>
      rw [hb] at h
      dsimp only at h
      cases x with
      | error e =>
        dsimp only at h
        by_cases hm : isMftExc e = true
        · rw [if_pos hm] at h; cases h
          refine .inr ⟨rfl, fun r' hr' => ?_⟩
          rw [hg] at hr'; cases hr'
          exact .inr ⟨e, hm, hb⟩
        · rw [if_neg hm] at h; cases h
      | ok l =>
        cases l with
        | nil =>
          cases h
          refine .inr ⟨rfl, fun r' hr' => ?_⟩
          rw [hg] at hr'; cases hr'
          exact .inl hb
        | cons y l =>
          cases h
          exact .inl ⟨r, y.2, l, hg, hb⟩

/-- When the program stops at a file: its record is found, but its attributes, or those of a directory on the way to the root, are
damaged in a way that is not reported by an exception of the file table. -/
theorem lookupPath_error {file : Bytes} {p : MFT.Parser} (hp : Parser.init file true = .ok p) (n s : Nat) (e : Exc)
    (h : lookupPath p n (some s) = .error e) :
    ∃ r, p.getRecord n (some s) = .ok r ∧ p.buildFullPaths r = some (.error e) ∧ isMftExc e = false := by
  unfold lookupPath at h
  cases hg : p.getRecord n (some s) with
  | error e' =>
    rw [hg] at h
    dsimp only at h
    obtain ⟨-, hl⟩ := Parser.init_loaded hp
    rw [if_pos (getRecord_error hl hg)] at h; cases h
  | ok r =>
    rw [hg] at h
    dsimp only at h
    unfold fullPaths at h
    cases hb : p.buildFullPaths r with
    | none => exact absurd hb (C18_paths_terminate file p hp r)
    | some x =>
      rw [hb] at h
      dsimp only at h
      cases x with
      | error e' =>
        dsimp only at h
        by_cases hm : isMftExc e' = true
        · rw [if_pos hm] at h; cases h
        · rw [if_neg hm] at h; cases h
          exact ⟨r, rfl, hb, by simpa using hm⟩
      | ok l => cases l <;> cases h

theorem record_timestamp (b : Bytes) (h : ValidRecord b) (hv : Spec.UsnTable.version b ≠ 4) :
    (recordOf b).timestamp = .ok (Attributes.decodeFiletime (Spec.UsnTable.timestamp b)) := by
  have hl := h.version
  unfold Record.timestamp
  rw [recordOf_raw]
  unfold Spec.UsnTable.timestamp Spec.UsnTable.field recordOf
  unfold Spec.UsnTable.version at hv ⊢
  by_cases h2 : leNat (slice b 4 6) = 2
  · rw [if_pos h2, if_pos h2]
    show (match unpackLE 8 (slice b 32 40) with | .error e => _ | .ok t => _) = _
    rw [unpackLE_of_length (by rw [slice_length]; omega)]
  · have h3 : leNat (slice b 4 6) = 3 := by omega
    rw [if_neg h2, if_pos h3, if_neg h2]
    show (match unpackLE 8 (slice b 48 56) with | .error e => _ | .ok t => _) = _
    rw [unpackLE_of_length (by rw [slice_length]; omega)]

theorem record_name (b : Bytes) (h : ValidRecord b) (hv : Spec.UsnTable.version b ≠ 4) :
    (recordOf b).fileName = if Spec.UsnTable.nameLength b = 0 ∨ Spec.UsnTable.nameOffset b + Spec.UsnTable.nameLength b ≤ b.length then
      .ok (utf16Decode (slice b (Spec.UsnTable.nameOffset b) (Spec.UsnTable.nameOffset b + Spec.UsnTable.nameLength b)))
    else .error .ValueError := by
  have hl := h.version
  unfold Spec.UsnTable.nameOffset Spec.UsnTable.nameLength Spec.UsnTable.field
  unfold Spec.UsnTable.version at hv ⊢
  by_cases h2 : leNat (slice b 4 6) = 2
  · simp only [if_pos h2]
    exact C31_name b h 56 (.inl ⟨h2, rfl⟩)
  · simp only [if_neg h2]
    exact C31_name b h 72 (.inr ⟨by omega, rfl⟩)

theorem record_fields (b : Bytes) (h : ValidRecord b) :
    (recordOf b).usn = .ok (Spec.UsnTable.usn b) ∧ (recordOf b).sourceInfo = .ok (Spec.UsnTable.source b) ∧
    (recordOf b).reason = .ok (Spec.UsnTable.reason b) ∧ (recordOf b).fileReference = .ok (Spec.UsnTable.file b) ∧
    (recordOf b).parentReference = .ok (Spec.UsnTable.parent b) := by
  obtain ⟨f1, f2, f3, f4, f5⟩ := C31_fields b h
  unfold Spec.UsnTable.usn Spec.UsnTable.source Spec.UsnTable.reason Spec.UsnTable.file Spec.UsnTable.parent Spec.UsnTable.version Spec.UsnTable.field
  rcases h.version with ⟨h1, h2⟩ | ⟨h1, h2⟩ | ⟨h1, h2⟩ <;> rw [h1] at f1 f2 f3 f4 f5 <;> rw [f1, f2, f3, f4, f5, h1] <;> exact ⟨rfl, rfl, rfl, rfl, rfl⟩

/-- The row of a valid record, or why there is none. -/
theorem usnRow_cases {file : Bytes} {p : MFT.Parser} (hp : Parser.init file true = .ok p) (b : Bytes) (h : ValidRecord b) :
    (∃ path, UsnTable.PathFor p (Spec.UsnTable.file b) path ∧ UsnTable.NameInside b ∧ usnRow p (recordOf b) = .ok (usnCells b path)) ∨
    (¬ UsnTable.NameInside b ∧ usnRow p (recordOf b) = .error .ValueError) ∨
    (∃ e r, usnRow p (recordOf b) = .error e ∧ p.getRecord (number (Spec.UsnTable.file b)) (some (sequence (Spec.UsnTable.file b))) = .ok r ∧
      p.buildFullPaths r = some (.error e) ∧ isMftExc e = false) := by
  obtain ⟨f1, f2, f3, f4, f5⟩ := record_fields b h
  have hraw := recordOf_raw b
  by_cases h4 : Spec.UsnTable.version b = 4
  · have hrec : recordOf b = .v4 b := by
      unfold Spec.UsnTable.version at h4
      unfold recordOf; rw [if_neg (by omega), if_neg (by omega)]
    have hrow : usnRow p (recordOf b) = (lookupPath p (number (Spec.UsnTable.file b)) (some (sequence (Spec.UsnTable.file b)))).map fun o => usnCells b (o.getD []) := by
      unfold usnRow
      rw [f1, f2, f3, f4, f5]
      rw [hrec]
      simp only [bind, Except.bind, pure, Except.pure, decode_ref]
      unfold usnCells
      rw [if_pos h4, if_pos h4]
      cases lookupPath p (number (Spec.UsnTable.file b)) (some (sequence (Spec.UsnTable.file b))) <;> rfl
    cases hl : lookupPath p (number (Spec.UsnTable.file b)) (some (sequence (Spec.UsnTable.file b))) with
    | ok o => exact .inl ⟨o.getD [], lookupPath_ok hp _ _ hl, .inl h4, by rw [hrow, hl]; rfl⟩
    | error e =>
      obtain ⟨r, h1, h2, h3⟩ := lookupPath_error hp _ _ _ hl
      exact .inr (.inr ⟨e, r, by rw [hrow, hl]; rfl, h1, h2, h3⟩)
  · have ht := record_timestamp b h h4
    have hn := record_name b h h4
    have hrec : ∃ v3, recordOf b = .v2or3 v3 b := by
      have hl := h.version
      unfold Spec.UsnTable.version at h4
      unfold recordOf
      by_cases h2 : leNat (slice b 4 6) = 2
      · exact ⟨false, by rw [if_pos h2]⟩
      · exact ⟨true, by rw [if_neg h2, if_pos (by omega)]⟩
    obtain ⟨v3, hrec⟩ := hrec
    by_cases hin : Spec.UsnTable.nameLength b = 0 ∨ Spec.UsnTable.nameOffset b + Spec.UsnTable.nameLength b ≤ b.length
    · rw [if_pos hin] at hn
      have hrow : usnRow p (recordOf b) = (lookupPath p (number (Spec.UsnTable.file b)) (some (sequence (Spec.UsnTable.file b)))).map fun o => usnCells b (o.getD []) := by
        rw [hrec] at f1 f2 f3 f4 f5 ht hn ⊢
        unfold usnRow
        simp only [f1, f2, f3, f4, f5, ht, hn, bind, Except.bind, pure, Except.pure, decode_ref]
        unfold usnCells
        rw [if_neg h4, if_neg h4]
        cases lookupPath p (number (Spec.UsnTable.file b)) (some (sequence (Spec.UsnTable.file b))) <;> rfl
      cases hl : lookupPath p (number (Spec.UsnTable.file b)) (some (sequence (Spec.UsnTable.file b))) with
      | ok o => exact .inl ⟨o.getD [], lookupPath_ok hp _ _ hl, .inr hin, by rw [hrow, hl]; rfl⟩
      | error e =>
        obtain ⟨r, h1, h2, h3⟩ := lookupPath_error hp _ _ _ hl
        exact .inr (.inr ⟨e, r, by rw [hrow, hl]; rfl, h1, h2, h3⟩)
    · rw [if_neg hin] at hn
      refine .inr (.inl ⟨?_, ?_⟩)
      · rintro (hh | hh)
        · exact h4 hh
        · exact hin hh
      · rw [hrec] at f1 f2 f3 f4 f5 ht hn ⊢
        unfold usnRow
        simp only [f1, f2, f3, f4, f5, ht, hn, bind, Except.bind]

/-- The first of the results, when it is an exception. -/
def stopOf {α : Type} : List (Except Exc α) → Option Exc
  | .error e :: _ => some e
  | _ => none

/-- The loop over the records: the rows of the first ones, and what happened at the next one, if anything. -/
theorem forEach_rows {α : Type} (f : α → Except Exc Row) : ∀ l : List α,
    ∃ rows rest, l.map f = rows.map .ok ++ rest ∧
      forEach (fun x => andThen (f x) fun row => .cons row .done) l = ⟨rows, stopOf rest⟩ ∧ (rest = [] ∨ ∃ e more, rest = .error e :: more)
  | [] => ⟨[], [], rfl, rfl, .inl rfl⟩
  | x :: l => by
    obtain ⟨rows, rest, h1, h2, h3⟩ := forEach_rows f l
    cases hx : f x with
    | error e =>
      refine ⟨[], .error e :: l.map f, by rw [List.map_cons, hx]; rfl, ?_, .inr ⟨e, _, rfl⟩⟩
      unfold forEach andThen
      rw [hx]; rfl
    | ok row =>
      refine ⟨row :: rows, rest, by rw [List.map_cons, hx, h1]; rfl, ?_, h3⟩
      unfold forEach
      rw [h2]
      unfold andThen
      rw [hx]
      rfl

/-- C97: the table is the header and rows for the records of the journal, in order, one for each, from the first one on.  Each row has the
fields of its record, and the path that the file table gives for the number and the sequence number of the file.  The program
writes all the rows unless it stops at a record (with an exception), which happens only when the name of this record is not inside of it
or when the paths of its file cannot be built because of an exception that is not one of the file table. -/
theorem C97_usn_table (journal mft : Bytes) (p : MFT.Parser) (hp : Parser.init mft true = .ok p) :
    ∃ records rows err, usnRecords journal = some ⟨records, none⟩ ∧ processUsn journal mft = some ⟨Spec.UsnTable.header :: rows, err⟩ ∧
      rows.length ≤ records.length ∧
      (∀ (i : Nat) (row : Row), rows[i]? = some row → ∃ x path, records[i]? = some x ∧
        UsnTable.PathFor p (Spec.UsnTable.file x.2.raw) path ∧ row = usnCells x.2.raw path) ∧
      (err = none → rows.length = records.length) ∧
      (∀ e, err = some e → ∃ x, records[rows.length]? = some x ∧
        ((e = .ValueError ∧ ¬ UsnTable.NameInside x.2.raw) ∨
         (isMftExc e = false ∧ ∃ r, p.getRecord (number (Spec.UsnTable.file x.2.raw)) (some (sequence (Spec.UsnTable.file x.2.raw))) = .ok r ∧
          p.buildFullPaths r = some (.error e)))) := by
  obtain ⟨g, hg, hge, hitems, -⟩ := C28_sound journal
  obtain ⟨records, err0⟩ := g
  dsimp only at hge hitems
  subst hge
  obtain ⟨rows, rest, h1, h2, h3⟩ := forEach_rows (fun x : Nat × Record => usnRow p x.2) records
  have hproc : processUsn journal mft = some ⟨Spec.UsnTable.header :: rows, stopOf rest⟩ := by
    unfold processUsn
    rw [hg]
    dsimp only
    rw [show Parser.init mft = .ok p from hp]
    show some (Gen.cons Spec.UsnTable.header ((forEach (fun x => andThen (usnRow p x.2) fun row => .cons row .done) records).append ⟨[], none⟩)) = _
    rw [h2]
    cases hs : stopOf rest <;> simp [Gen.append, Gen.cons]
  have hvalid : ∀ x ∈ records, ValidRecord x.2.raw ∧ x.2 = recordOf x.2.raw := by
    intro x hx
    obtain ⟨-, hr, hraw, hrec⟩ := hitems x hx
    exact ⟨hraw ▸ hr.2.2, hrec⟩
  have hlen := congrArg List.length h1
  rw [List.length_map, List.length_append, List.length_map] at hlen
  have hget : ∀ i : Nat, (records[i]?).map (fun x : Nat × Record => usnRow p x.2) = (rows.map Except.ok ++ rest)[i]? := by
    intro i; rw [← h1, List.getElem?_map]
  refine ⟨records, rows, _, hg, hproc, by omega, ?_, ?_, ?_⟩
  · intro i row hrow
    have hi := hget i
    have hlt : i < rows.length := (List.getElem?_eq_some_iff.1 hrow).1
    rw [List.getElem?_append_left (by rw [List.length_map]; exact hlt), List.getElem?_map, hrow] at hi
    cases hx : records[i]? with
    | none => rw [hx] at hi; cases hi
    | some x =>
      rw [hx] at hi
      have hok : usnRow p x.2 = .ok row := by
        simpa using hi
      obtain ⟨hv, hrec⟩ := hvalid x (List.mem_of_getElem? hx)
      rw [hrec] at hok
      rcases usnRow_cases hp x.2.raw hv with ⟨path, hpath, -, hr⟩ | ⟨-, hr⟩ | ⟨e, r, hr, -⟩
      · rw [hr] at hok; cases hok
        exact ⟨x, path, rfl, hpath, rfl⟩
      · rw [hr] at hok; cases hok
      · rw [hr] at hok; cases hok
  · intro he
    rcases h3 with rfl | ⟨e, more, rfl⟩
    · simp only [List.length_nil] at hlen; omega
    · cases he
  · intro e he
    rcases h3 with rfl | ⟨e', more, rfl⟩
    · cases he
    · cases he
      have hi := hget rows.length
      rw [List.getElem?_append_right (by rw [List.length_map]; exact Nat.le_refl _), List.length_map, Nat.sub_self] at hi
      cases hx : records[rows.length]? with
      | none => rw [hx] at hi; cases hi
      | some x =>
        rw [hx] at hi
        have herr : usnRow p x.2 = .error e := by simpa using hi
        obtain ⟨hv, hrec⟩ := hvalid x (List.mem_of_getElem? hx)
        rw [hrec] at herr
        refine ⟨x, rfl, ?_⟩
        rcases usnRow_cases hp x.2.raw hv with ⟨path, hpath, -, hr⟩ | ⟨hn, hr⟩ | ⟨e', r, hr, q1, q2, q3⟩
        · rw [hr] at herr; cases herr
        · rw [hr] at herr; cases herr; exact .inl ⟨rfl, hn⟩
        · rw [hr] at herr; cases herr; exact .inr ⟨q3, r, q1, q2⟩

/-- The file records of the table can be used for paths: the attributes can be read, and directories have a name. -/
def UsableTable (file : Bytes) (size : Nat) : Prop :=
  ∀ k s r, IsRecord file size k s r → Readable r ∧ ((flagsOf r.base).testBit 1 = true → fileNames r.attributes.items ≠ [])

theorem buildFullPaths_usable {file : Bytes} {p : MFT.Parser} (hp : Parser.init file true = .ok p) (hu : UsableTable file p.size)
    {n : Nat} {s : Option Nat} {r : FileRecord} (hr : p.getRecord n s = .ok r) (e : Exc) : p.buildFullPaths r ≠ some (.error e) := by
  intro h
  have hrec : ∃ k s', IsRecord file p.size k s' r := by
    rcases (C16_lookup_iff file p hp n s r).1 hr with ⟨s', h1, -⟩ | ⟨-, f, -, -, -, h4⟩
    · exact ⟨n, s', h1⟩
    · exact ⟨_, _, h4⟩
  obtain ⟨k, s', hrec⟩ := hrec
  obtain ⟨v, -, dirs, top, d, -, hd, hdir, hbad⟩ := C19_failure file p hp r (hu k s' r hrec).1 e h
  have := hu _ _ d hd
  exact hbad ⟨this.1, this.2 hdir⟩

/-- C97, the part that is missing from the above: no record is left out.  This is not true of every journal and table (see below), but when
the names are inside of the records and the file table is usable, the table has a row for each record. -/
theorem C97_complete_partial (journal mft : Bytes) (p : MFT.Parser) (hp : Parser.init mft true = .ok p) (records : List (Nat × Record))
    (hr : usnRecords journal = some ⟨records, none⟩) (hn : ∀ x ∈ records, UsnTable.NameInside x.2.raw) (hu : UsableTable mft p.size) :
    ∃ rows, processUsn journal mft = some ⟨Spec.UsnTable.header :: rows, none⟩ ∧ rows.length = records.length := by
  obtain ⟨records', rows, err, h1, h2, -, -, h4, h5⟩ := C97_usn_table journal mft p hp
  rw [hr] at h1
  cases h1
  cases err with
  | none => exact ⟨rows, h2, h4 rfl⟩
  | some e =>
    obtain ⟨x, hx, ⟨-, h⟩ | ⟨-, r, h6, h7⟩⟩ := h5 e rfl
    · exact absurd (hn x (List.mem_of_getElem? hx)) h
    · exact absurd h7 (buildFullPaths_usable hp hu h6 e)

/-- C97: a path that is reported for a record of the journal is that of a file record which is known by the sequence number in the
reference: not that of another file which has reused the number. -/
theorem C97_sequence_number (mft : Bytes) (p : MFT.Parser) (hp : Parser.init mft true = .ok p) (reference : Nat) (path : Str)
    (h : UsnTable.PathFor p reference path) (hne : path ≠ []) :
    ∃ f, segmentAt mft p.size (number reference) = some f ∧ knownSequence f = sequence reference := by
  rcases h with ⟨r, v, rest, h1, -⟩ | ⟨h1, -⟩
  · obtain ⟨f, g1, g2, -⟩ := C16_sequence_number_honoured mft p hp _ _ r h1
    exact ⟨f, g1, g2⟩
  · exact absurd h1 hne

end Verif.Props
