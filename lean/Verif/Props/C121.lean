/-
C121: the text of a log record.
-/
import Verif.Proof.LogReport
import Verif.Model.LogFile.RecordText
import Verif.Spec.RecordText
namespace Verif.Props
open Verif.LogFile (recordText targetText Config Item redoOffset undoOffset redoData undoData redoLength undoLength redoOperation undoOperation
  mftTargetNumber offsetInTarget textLength)
open Verif.Scripts (resolveOperation targetReference decimal signedDecimal)
open Verif.Spec.LogReport Verif.Spec.RecordText Verif.Proof.LogReport

theorem targetText_iff (config : Config) (tables : Option Item) (b : Bytes) (s : Str) :
    targetText config tables b = s ↔ IsTargetText config tables b s := by
  constructor
  · intro h
    unfold targetText at h
    cases hn : mftTargetNumber b config.clusterSize with
    | some n =>
      rw [hn] at h
      obtain ⟨h1, h2, h3⟩ := (number_iff b config.clusterSize n).1 hn
      rw [← h]
      dsimp only
      rw [signedDecimal_eq]
      exact .segment n h1 h2 h3
    | none =>
      rw [hn] at h
      have h1 := (number_none b config.clusterSize).1 hn
      dsimp only at h
      cases tables with
      | none =>
        rw [← h]
        exact .unknown h1 fun i hi => by cases hi
      | some i =>
        cases hr : targetReference config.oatVersion i b with
        | some t =>
          rw [Option.bind_some, hr] at h
          obtain ⟨h2, h3⟩ := (isOpen_iff config.oatVersion i b t.1 t.2).1 hr
          rw [← h]
          dsimp only
          rw [decimal_eq]
          exact .opened i t.1 t.2 rfl h1 h2 h3
        | none =>
          rw [Option.bind_some, hr] at h
          rw [← h]
          refine .unknown h1 fun j hj h2 r name ho => ?_
          cases hj
          have := (isOpen_iff config.oatVersion i b r name).2 ⟨h2, ho⟩
          rw [hr] at this
          cases this
  · intro h
    unfold targetText
    cases h with
    | segment n h h1 h2 =>
      rw [(number_iff b config.clusterSize n).2 ⟨h, h1, h2⟩]
      dsimp only
      rw [signedDecimal_eq]
    | opened i r name ht h ha ho =>
      rw [(number_none b config.clusterSize).2 h, ht]
      dsimp only
      rw [Option.bind_some, (isOpen_iff config.oatVersion i b r name).2 ⟨ha, ho⟩]
      dsimp only
      rw [decimal_eq]
    | unknown h ha =>
      rw [(number_none b config.clusterSize).2 h]
      dsimp only
      cases tables with
      | none => rfl
      | some i =>
        rw [Option.bind_some]
        cases hr : targetReference config.oatVersion i b with
        | none => rfl
        | some t =>
          obtain ⟨h2, h3⟩ := (isOpen_iff config.oatVersion i b t.1 t.2).1 hr
          exact absurd h3 (ha i rfl h2 t.1 t.2)

theorem offsetText_eq (config : Config) (b : Bytes) :
    LogFile.offsetText config b = Spec.RecordText.offsetText (offsetInTarget b config.clusterSize) := by
  unfold LogFile.offsetText Spec.RecordText.offsetText
  cases offsetInTarget b config.clusterSize with
  | none => rfl
  | some o => exact signedDecimal_eq o

theorem redoOffset_ok (b : Bytes) (h : OffsetAccepted b 4) : redoOffset b = .ok (field b 4 2) := by
  unfold redoOffset
  have e : u16 b 4 = field b 4 2 := rfl
  unfold OffsetAccepted at h
  rw [e, if_neg (by omega)]

theorem undoOffset_ok (b : Bytes) (h : OffsetAccepted b 8) : undoOffset b = .ok (field b 8 2) := by
  unfold undoOffset
  have e : u16 b 8 = field b 8 2 := rfl
  unfold OffsetAccepted at h
  rw [e, if_neg (by omega)]

theorem redoOffset_bad (b : Bytes) (h : ¬ OffsetAccepted b 4) : redoOffset b = .error .ClientException := by
  unfold redoOffset
  have e : u16 b 4 = field b 4 2 := rfl
  unfold OffsetAccepted at h
  rw [e, if_pos (by omega)]

theorem undoOffset_bad (b : Bytes) (h : ¬ OffsetAccepted b 8) : undoOffset b = .error .ClientException := by
  unfold undoOffset
  have e : u16 b 8 = field b 8 2 := rfl
  unfold OffsetAccepted at h
  rw [e, if_pos (by omega)]

theorem textLength_eq (b : Bytes) (i : Nat) : textLength (field b i 2) (field b (i + 2) 2) = shownLength b i := by
  unfold textLength shownLength
  by_cases h : field b i 2 = 0
  · rw [if_neg (by omega), if_pos h]
  · rw [if_pos (by omega), if_neg h]

/-- What the text is, when both offsets are accepted. -/
theorem recordText_ok (config : Config) (tables : Option Item) (b : Bytes) (lsn : Nat) (h4 : OffsetAccepted b 4) (h8 : OffsetAccepted b 8)
    [Decidable (OnePart b)] :
    recordText config tables b lsn = .ok (beginning lsn (field b 0 2) (shownLength b 4) (field b 2 2) (shownLength b 8)
      (if OnePart b then "==" else "!=") ++ targetText config tables b ++ Str.ofString ", offset in target: " ++
      Spec.RecordText.offsetText (offsetInTarget b config.clusterSize)) := by
  unfold recordText
  rw [redoOffset_ok b h4, undoOffset_ok b h8]
  show Except.ok _ = _
  have er : textLength (field b 4 2) (redoLength b) = shownLength b 4 := textLength_eq b 4
  have eu : textLength (field b 8 2) (undoLength b) = shownLength b 8 := textLength_eq b 8
  have eo : resolveOperation (redoOperation b) = operation (field b 0 2) := operation_eq (field_lt b 0)
  have ep : resolveOperation (undoOperation b) = operation (field b 2 2) := operation_eq (field_lt b 2)
  have es : (if shownLength b 4 > 0 ∧ shownLength b 4 = shownLength b 8 ∧ field b 4 2 = field b 8 2 then "==" else "!=") =
      (if OnePart b then "==" else "!=") := by
    by_cases h : shownLength b 4 = 0
    · rw [if_neg (by omega), if_neg (fun x => x.1 h)]
    · by_cases h' : shownLength b 4 = shownLength b 8 ∧ field b 4 2 = field b 8 2
      · rw [if_pos ⟨by omega, h'⟩, if_pos ⟨h, h'⟩]
      · rw [if_neg (fun x => h' x.2), if_neg (fun x => h' x.2)]
  rw [er, eu, eo, ep, es, offsetText_eq]
  simp only [decimal_eq, beginning]

/-- C121: the text of a log record is the one of the specification, whatever the bytes of the record and the tables are. -/
theorem C121_text (config : Config) (tables : Option Item) (b : Bytes) (lsn : Nat) (text : Str) :
    recordText config tables b lsn = .ok text ↔ IsText config tables b lsn text := by
  by_cases h4 : OffsetAccepted b 4
  · by_cases h8 : OffsetAccepted b 8
    · have : Decidable (OnePart b) := by unfold OnePart; exact inferInstance
      rw [recordText_ok config tables b lsn h4 h8, Except.ok.injEq]
      constructor
      · intro h
        refine ⟨h4, h8, _, _, _, ?_, (targetText_iff config tables b _).1 rfl, (offset_iff config b _).1 rfl, h.symm⟩
        by_cases ho : OnePart b
        · exact .inl ⟨if_pos ho, ho⟩
        · exact .inr ⟨if_neg ho, ho⟩
      · rintro ⟨-, -, status, target, offset, hs, ht, ho, rfl⟩
        rw [(targetText_iff config tables b target).2 ht, (offset_iff config b offset).2 ho]
        rcases hs with ⟨rfl, hs⟩ | ⟨rfl, hs⟩
        · rw [if_pos hs]
        · rw [if_neg hs]
    · refine ⟨fun h => ?_, fun h => absurd h.2.1 h8⟩
      unfold recordText at h
      rw [redoOffset_ok b h4, undoOffset_bad b h8] at h
      cases h
  · refine ⟨fun h => ?_, fun h => absurd h.1 h4⟩
    unfold recordText at h
    rw [redoOffset_bad b h4] at h
    cases h

/-- C121: there is no text exactly if the offset of the redo or of the undo data is inside of the header of the record. -/
theorem C121_no_text (config : Config) (tables : Option Item) (b : Bytes) (lsn : Nat) (e : Exc) :
    recordText config tables b lsn = .error e ↔ e = .ClientException ∧
      ((0 < field b 4 2 ∧ field b 4 2 < 32) ∨ (0 < field b 8 2 ∧ field b 8 2 < 32)) := by
  have i4 : OffsetAccepted b 4 ↔ ¬ (0 < field b 4 2 ∧ field b 4 2 < 32) := by unfold OffsetAccepted; omega
  have i8 : OffsetAccepted b 8 ↔ ¬ (0 < field b 8 2 ∧ field b 8 2 < 32) := by unfold OffsetAccepted; omega
  by_cases h4 : OffsetAccepted b 4
  · by_cases h8 : OffsetAccepted b 8
    · have : Decidable (OnePart b) := by unfold OnePart; exact inferInstance
      rw [recordText_ok config tables b lsn h4 h8]
      refine ⟨(fun h => by cases h), fun h => ?_⟩
      rcases h.2 with h | h
      · exact absurd h (i4.1 h4)
      · exact absurd h (i8.1 h8)
    · unfold recordText
      rw [redoOffset_ok b h4, undoOffset_bad b h8]
      have h : 0 < field b 8 2 ∧ field b 8 2 < 32 := by unfold OffsetAccepted at h8; omega
      exact ⟨(fun x => by cases x; exact ⟨rfl, .inr h⟩), (fun x => by rw [x.1]; rfl)⟩
  · unfold recordText
    rw [redoOffset_bad b h4]
    have h : 0 < field b 4 2 ∧ field b 4 2 < 32 := by unfold OffsetAccepted at h4; omega
    exact ⟨(fun x => by cases x; exact ⟨rfl, .inl h⟩), (fun x => by rw [x.1]; rfl)⟩

/-! ### The data -/

/-- The length that is shown is that of the data, if the offset is not zero and the data is in the record. -/
theorem shownLength_data {b d : Bytes} {i : Nat} (h : IsData b i d) (h0 : field b i 2 ≠ 0)
    (hl : field b i 2 + field b (i + 2) 2 ≤ b.length) : shownLength b i = d.length := by
  unfold shownLength
  rw [if_neg h0]
  rcases h with ⟨h1, rfl⟩ | ⟨-, -, rfl⟩
  · exact h1
  · rw [slice_length]; omega

/-- C121: the lengths in the text are those of the redo and the undo data, for data in the record and with offsets that are not zero.
(Missing: data at offset zero, which is read but shown as having no length, and data that reaches past the end of the record, see
`C121_zero_offset` and `C121_cut`.) -/
theorem C121_lengths_partial (config : Config) (tables : Option Item) (b redo undo : Bytes) (lsn : Nat) (text : Str)
    (h : recordText config tables b lsn = .ok text) (hr : redoData b = .ok redo) (hu : undoData b = .ok undo)
    (h4 : field b 4 2 ≠ 0) (h4' : field b 4 2 + field b 6 2 ≤ b.length)
    (h8 : field b 8 2 ≠ 0) (h8' : field b 8 2 + field b 10 2 ≤ b.length) :
    ∃ status rest, text = beginning lsn (field b 0 2) redo.length (field b 2 2) undo.length status ++ rest := by
  obtain ⟨-, -, status, target, offset, -, -, -, rfl⟩ := (C121_text config tables b lsn text).1 h
  rw [shownLength_data ((redoData_iff b redo).1 hr) h4 h4', shownLength_data ((undoData_iff b undo).1 hu) h8 h8']
  exact ⟨status, target ++ (Str.ofString ", offset in target: " ++ Spec.RecordText.offsetText offset), by simp only [List.append_assoc]⟩

/-! ### Reading a text -/

theorem digits_mem (n : Nat) : ∀ c ∈ digits n, 0x30 ≤ c ∧ c ≤ 0x39 := by
  fun_induction digits n with
  | case1 n h => intro c hc; rw [List.mem_singleton.1 hc]; omega
  | case2 n h ih =>
    intro c hc
    rcases List.mem_append.1 hc with hc | hc
    · exact ih c hc
    · rw [List.mem_singleton.1 hc]; omega

theorem decimal_digits_inj {n m : Nat} (h : digits n = digits m) : n = m := by
  rw [← decimal_eq, ← decimal_eq] at h
  have := Proof.Decimal.decimal_value n
  rw [h, Proof.Decimal.decimal_value] at this
  exact (Option.some.inj this).symm

theorem operations_no_space : ∀ s ∈ operations, 0x20 ∉ Str.ofString s ∧ (Str.ofString s).head? ≠ some 0x30 := by decide +kernel

theorem operations_distinct : ∀ i, i < 38 → ∀ j, j < 38 → operations[i]?.map Str.ofString = operations[j]?.map Str.ofString → i = j := by
  decide +kernel

theorem operation_no_space (n : Nat) : 0x20 ∉ operation n := by
  unfold operation
  cases h : operations[n]? with
  | some s => exact (operations_no_space s (List.mem_of_getElem? h)).1
  | none =>
    dsimp only
    intro hc
    rcases List.mem_append.1 hc with hc | hc
    · revert hc; decide
    · rw [Proof.MoveReport.digits_eq] at hc
      obtain ⟨i, -, hi⟩ := List.mem_map.1 hc
      have : ∀ d, d < 16 → Proof.MoveReport.digit d ≠ 0x20 := by decide
      exact this _ (Nat.mod_lt _ (by omega)) hi

theorem operation_inj {n m : Nat} (hn : n < 65536) (hm : m < 65536) (h : operation n = operation m) : n = m := by
  rw [← operation_eq hn, ← operation_eq hm] at h
  have e : Scripts.operationNames = operations := rfl
  unfold resolveOperation at h
  rw [e] at h
  cases ha : operations[n]? with
  | some s =>
    cases hb : operations[m]? with
    | some t =>
      rw [ha, hb] at h
      refine operations_distinct n (List.getElem?_eq_some_iff.1 ha).1 m (List.getElem?_eq_some_iff.1 hb).1 ?_
      rw [ha, hb]
      exact congrArg some h
    | none =>
      rw [ha, hb] at h
      dsimp only at h
      exact absurd (by rw [h]; rfl) (operations_no_space s (List.mem_of_getElem? ha)).2
  | none =>
    cases hb : operations[m]? with
    | some t =>
      rw [ha, hb] at h
      dsimp only at h
      exact absurd (by rw [← h]; rfl) (operations_no_space t (List.mem_of_getElem? hb)).2
    | none =>
      rw [ha, hb] at h
      exact pyHex_inj h

/-- A part of a text ends at the first character of the text after it, if that character is not in the part. -/
theorem part_inj {a b s x y : Str} {c : Nat} (ha : c ∉ a) (hb : c ∉ b) (h : a ++ (c :: s ++ x) = b ++ (c :: s ++ y)) : a = b ∧ x = y := by
  refine append_sep_inj (s1 := []) (s2 := s) ha hb (by simp) ?_
  simpa using h

theorem digits_not {n c : Nat} (h : c < 0x30 ∨ 0x39 < c) : c ∉ digits n := fun hc => by
  have := digits_mem n c hc
  omega

/-- The parts of the beginning of a text can be read back. -/
theorem beginning_inj {lsn lsn' o o' l l' u u' k k' : Nat} {s s' : String} {x y : Str} (ho : o < 65536) (ho' : o' < 65536) (hu : u < 65536)
    (hu' : u' < 65536) (hs : s = "==" ∨ s = "!=") (hs' : s' = "==" ∨ s' = "!=")
    (h : beginning lsn o l u k s ++ x = beginning lsn' o' l' u' k' s' ++ y) :
    lsn = lsn' ∧ o = o' ∧ l = l' ∧ u = u' ∧ k = k' ∧ s = s' ∧ x = y := by
  unfold beginning at h
  simp only [List.append_assoc] at h
  have h0 := List.append_cancel_left h
  obtain ⟨e1, h1⟩ := part_inj (c := 0x29) (s := (Str.ofString "), redo operation: ").tail) (digits_not (by omega)) (digits_not (by omega)) h0
  obtain ⟨e2, h2⟩ := part_inj (c := 0x20) (s := (Str.ofString " (length: ").tail) (operation_no_space o) (operation_no_space o') h1
  obtain ⟨e3, h3⟩ := part_inj (c := 0x29) (s := (Str.ofString "), undo operation: ").tail) (digits_not (by omega)) (digits_not (by omega)) h2
  obtain ⟨e4, h4⟩ := part_inj (c := 0x20) (s := (Str.ofString " (length: ").tail) (operation_no_space u) (operation_no_space u') h3
  obtain ⟨e5, h5⟩ := part_inj (c := 0x29) (s := (Str.ofString "), redo ").tail) (digits_not (by omega)) (digits_not (by omega)) h4
  have n : ∀ t : String, t = "==" ∨ t = "!=" → 0x20 ∉ Str.ofString t := by
    rintro t (rfl | rfl) <;> decide
  obtain ⟨e6, h6⟩ := part_inj (c := 0x20) (s := (Str.ofString " undo, target: ").tail) (n s hs) (n s' hs') h5
  refine ⟨decimal_digits_inj e1, operation_inj ho ho' e2, decimal_digits_inj e3, operation_inj hu hu' e4, decimal_digits_inj e5, ?_, h6⟩
  rcases hs with rfl | rfl <;> rcases hs' with rfl | rfl
  · rfl
  · exact absurd e6 (by decide)
  · exact absurd e6 (by decide)
  · rfl

/-- C121: log records with the same text have the same LSN, the same operations, the same lengths in the text, and the same redo and undo data
in the one case exactly if in the other. -/
theorem C121_readable (config config' : Config) (tables tables' : Option Item) (b b' : Bytes) (lsn lsn' : Nat) (text : Str)
    (h : recordText config tables b lsn = .ok text) (h' : recordText config' tables' b' lsn' = .ok text) :
    lsn = lsn' ∧ field b 0 2 = field b' 0 2 ∧ field b 2 2 = field b' 2 2 ∧ shownLength b 4 = shownLength b' 4 ∧
      shownLength b 8 = shownLength b' 8 ∧ (OnePart b ↔ OnePart b') := by
  obtain ⟨-, -, s, target, offset, hs, -, -, rfl⟩ := (C121_text config tables b lsn text).1 h
  obtain ⟨-, -, s', target', offset', hs', -, -, he⟩ := (C121_text config' tables' b' lsn' _).1 h'
  simp only [List.append_assoc] at he
  have is : s = "==" ∨ s = "!=" := hs.imp And.left And.left
  have is' : s' = "==" ∨ s' = "!=" := hs'.imp And.left And.left
  obtain ⟨e1, e2, e3, e4, e5, e6, -⟩ := beginning_inj (field_lt b 0) (field_lt b' 0) (field_lt b 2) (field_lt b' 2) is is' he
  refine ⟨e1, e2, e4, e3, e5, ?_⟩
  rcases hs with ⟨hs, h1⟩ | ⟨hs, h1⟩ <;> rcases hs' with ⟨hs', h2⟩ | ⟨hs', h2⟩
  · exact ⟨fun _ => h2, fun _ => h1⟩
  · rw [hs, hs'] at e6; exact absurd e6 (by decide)
  · rw [hs, hs'] at e6; exact absurd e6 (by decide)
  · exact ⟨fun x => absurd x h1, fun x => absurd x h2⟩

/-- C121: when the text says that the redo and the undo data are equal, they are, and the length is not zero. -/
theorem C121_equal (config : Config) (tables : Option Item) (b : Bytes) (lsn redoLength undoLength : Nat) (rest : Str)
    (h : recordText config tables b lsn = .ok (beginning lsn (field b 0 2) redoLength (field b 2 2) undoLength "==" ++ rest)) :
    ∃ d, redoData b = .ok d ∧ undoData b = .ok d ∧ field b 6 2 ≠ 0 := by
  obtain ⟨h4, h8, s, target, offset, hs, -, -, he⟩ := (C121_text config tables b lsn _).1 h
  simp only [List.append_assoc] at he
  obtain ⟨-, -, -, -, -, e6, -⟩ := beginning_inj (field_lt b 0) (field_lt b 0) (field_lt b 2) (field_lt b 2) (.inl rfl)
    (hs.imp And.left And.left) he
  have hb : OnePart b := by
    rcases hs with ⟨-, hb⟩ | ⟨hs, -⟩
    · exact hb
    · rw [hs] at e6; exact absurd e6 (by decide)
  obtain ⟨h1, h2, h3⟩ := hb
  have n4 : field b 4 2 ≠ 0 := fun x => h1 (by unfold shownLength; rw [if_pos x])
  have n8 : field b 8 2 ≠ 0 := by rw [← h3]; exact n4
  have e4 : shownLength b 4 = field b 6 2 := if_neg n4
  have e8 : shownLength b 8 = field b 10 2 := if_neg n8
  rw [e4] at h1 h2
  rw [e8] at h2
  refine ⟨slice b (field b 4 2) (field b 4 2 + field b 6 2), (redoData_iff b _).2 (.inr ⟨h1, h4, rfl⟩), (undoData_iff b _).2 (.inr ⟨?_, h8, ?_⟩), h1⟩
  · show field b 10 2 ≠ 0
    rw [← h2]; exact h1
  · show _ = slice b (field b 8 2) (field b 8 2 + field b 10 2)
    rw [← h2, ← h3]

/-! ### Cases -/

/-- A log record that updates a resident value: both operations at 0 and 2, the redo data at 32, the undo data at 40, the offset 24 in the record
and the offset 56 in the attribute, for the second segment of cluster 3. -/
def updateRecord : Bytes :=
  [7, 0, 7, 0, 32, 0, 8, 0, 40, 0, 4, 0, 24, 0, 0, 0, 56, 0, 24, 0, 2, 0, 2, 0, 3, 0, 0, 0, 0, 0, 0, 0,
   1, 2, 3, 4, 5, 6, 7, 8, 9, 9, 9, 9, 0, 0, 0, 0]

example : recordText ⟨4096, none, 1⟩ none updateRecord 1234 = .ok (Str.ofString ("NTFSLogRecord (LSN: 1234), redo operation: UpdateResidentValue " ++
    "(length: 8), undo operation: UpdateResidentValue (length: 4), redo != undo, target: 13 (FRS number), offset in target: 80")) := by
  decide +kernel

/-- The hypotheses of `C121_lengths_partial` are met. -/
example : redoData updateRecord = .ok [1, 2, 3, 4, 5, 6, 7, 8] ∧ undoData updateRecord = .ok [9, 9, 9, 9] ∧ field updateRecord 4 2 ≠ 0 ∧
    field updateRecord 4 2 + field updateRecord 6 2 ≤ updateRecord.length ∧ field updateRecord 8 2 ≠ 0 ∧
    field updateRecord 8 2 + field updateRecord 10 2 ≤ updateRecord.length := by decide +kernel

/-- A log record for an open attribute, whose redo data is its undo data. -/
def bitsRecord : Bytes :=
  [0x15, 0, 0x16, 0, 32, 0, 8, 0, 32, 0, 8, 0, 24, 0, 0, 0, 0, 0, 24, 0, 0, 0, 0, 0, 3, 0, 0, 0, 0, 0, 0, 0, 1, 2, 3, 4, 5, 6, 7, 8]

example : recordText ⟨4096, none, 1⟩ (some ⟨.logRecord bitsRecord 7 0, [(24, 0x0005000000000006, [0x24, 0x41])], none, none⟩) bitsRecord 7 =
    .ok (Str.ofString ("NTFSLogRecord (LSN: 7), redo operation: SetBitsInNonresidentBitMap (length: 8), " ++
      "undo operation: ClearBitsInNonresidentBitMap (length: 8), redo == undo, " ++
      "target: 1407374883553286/$A (FRS reference / attribute name), offset in target: 12312")) := by decide +kernel

/-- The hypothesis of `C121_equal` is met. -/
example : recordText ⟨4096, none, 1⟩ none bitsRecord 7 = .ok (beginning 7 (field bitsRecord 0 2) 8 (field bitsRecord 2 2) 8 "==" ++
    Str.ofString "unknown, offset in target: 12312") := by decide +kernel

/-- C121 does not hold for every log record: the redo and the undo data of this one can be read (there is no undo data), but it has no text,
because the offset of the undo data is not accepted. -/
theorem C121_readable_without_text : ∃ b : Bytes, 32 ≤ b.length ∧ redoData b = .ok [1, 2, 3, 4, 5, 6, 7, 8] ∧ undoData b = .ok [] ∧
    recordText ⟨4096, none, 1⟩ none b 7 = .error .ClientException :=
  ⟨[0x15, 0, 0, 0, 32, 0, 8, 0, 16, 0, 0, 0, 24, 0, 0, 0, 0, 0, 24, 0, 0, 0, 0, 0, 3, 0, 0, 0, 0, 0, 0, 0, 1, 2, 3, 4, 5, 6, 7, 8],
    by decide +kernel⟩

/-- C121 does not hold for every log record: redo data at offset zero is read, but its length in the text is zero. -/
theorem C121_zero_offset : ∃ b : Bytes, redoData b = .ok (b.take 8) ∧ 8 ≤ b.length ∧
    recordText ⟨4096, none, 1⟩ none b 7 = .ok (beginning 7 0x15 0 0 0 "!=" ++ Str.ofString "unknown, offset in target: 12312") :=
  ⟨[0x15, 0, 0, 0, 0, 0, 8, 0, 0, 0, 0, 0, 24, 0, 0, 0, 0, 0, 24, 0, 0, 0, 0, 0, 3, 0, 0, 0, 0, 0, 0, 0], by decide +kernel⟩

/-- C121 does not hold for every log record: the length of redo data that reaches past the end of the record is not that in the text. -/
theorem C121_cut : ∃ b : Bytes, redoData b = .ok [1, 2] ∧
    recordText ⟨4096, none, 1⟩ none b 7 = .ok (beginning 7 0x15 8 0 0 "!=" ++ Str.ofString "unknown, offset in target: 12312") :=
  ⟨[0x15, 0, 0, 0, 32, 0, 8, 0, 0, 0, 0, 0, 24, 0, 0, 0, 0, 0, 24, 0, 0, 0, 0, 0, 3, 0, 0, 0, 0, 0, 0, 0, 1, 2], by decide +kernel⟩

/-- C121 does not hold for every log record: equal redo and undo data in two places of the record are shown as different. -/
theorem C121_equal_shown_different : ∃ b : Bytes, redoData b = .ok [1, 2] ∧ undoData b = .ok [1, 2] ∧
    recordText ⟨4096, none, 1⟩ none b 7 = .ok (beginning 7 0x15 2 0x15 2 "!=" ++ Str.ofString "unknown, offset in target: 12312") :=
  ⟨[0x15, 0, 0x15, 0, 32, 0, 2, 0, 34, 0, 2, 0, 24, 0, 0, 0, 0, 0, 24, 0, 0, 0, 0, 0, 3, 0, 0, 0, 0, 0, 0, 0, 1, 2, 1, 2], by decide +kernel⟩

/-- The number of the file record segment in a text may be negative (the report of `ntfs_parser` ends at such a record, see C108). -/
example : recordText ⟨4096, none, 1⟩ none ([7, 0, 7, 0, 0, 0, 0, 0, 0, 0, 0, 0, 24, 0, 0, 0, 0, 0, 0, 0, 0, 0, 2, 0] ++ List.replicate 8 255) 7 =
    .ok (beginning 7 7 0 7 0 "!=" ++ Str.ofString "-4 (FRS number), offset in target: 0") := by decide +kernel

end Verif.Props
