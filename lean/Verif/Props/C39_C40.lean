/-
Properties C39 and C40: the data of NTFS log records and the dumps of tables.
-/
import Verif.Model.LogFile.Client
import Verif.Props.C22_C24
namespace Verif.Props
open Verif.LogFile

/-! ### C39 -/

/-- The fields of a log record. -/
def redoOffsetField (b : Bytes) : Nat := leNat (slice b 4 6)
def redoLengthField (b : Bytes) : Nat := leNat (slice b 6 8)
def undoOffsetField (b : Bytes) : Nat := leNat (slice b 8 10)
def undoLengthField (b : Bytes) : Nat := leNat (slice b 10 12)
def lcnCountField (b : Bytes) : Nat := leNat (slice b 14 16)

/-- C39: the redo and the undo data of every record: no data when the length is zero, a ClientException
when the offset is in the header (1 to 31), else the bytes at the recorded place.  What is missing:
the end of the record is not checked, so the data can be shorter than recorded, and the offset zero is
accepted, so the data can be a part of the header (both shown below). -/
theorem C39_redo_undo_partial (b : Bytes) :
    redoData b = (if redoLengthField b = 0 then .ok []
      else if 1 ≤ redoOffsetField b ∧ redoOffsetField b ≤ 31 then .error .ClientException
      else .ok ((b.drop (redoOffsetField b)).take (redoLengthField b))) ∧
    undoData b = (if undoLengthField b = 0 then .ok []
      else if 1 ≤ undoOffsetField b ∧ undoOffsetField b ≤ 31 then .error .ClientException
      else .ok ((b.drop (undoOffsetField b)).take (undoLengthField b))) := by
  have key : ∀ o n : Nat, (if n = 0 then Except.ok [] else
      match (if o > 0 ∧ o < 32 then Except.error Exc.ClientException else Except.ok o) with
      | .error e => .error e
      | .ok o => .ok (slice b o (o + n))) =
      (if n = 0 then Except.ok [] else if 1 ≤ o ∧ o ≤ 31 then .error .ClientException else .ok ((b.drop o).take n)) := by
    intro o n
    by_cases h0 : n = 0
    · rw [if_pos h0, if_pos h0]
    rw [if_neg h0, if_neg h0]
    by_cases h1 : o > 0 ∧ o < 32
    · rw [if_pos h1, if_pos (by omega)]
    · rw [if_neg h1, if_neg (by omega)]
      show Except.ok (slice b o (o + n)) = _
      rw [slice, Nat.add_sub_cancel_left]
  exact ⟨key (redoOffsetField b) (redoLengthField b), key (undoOffsetField b) (undoLengthField b)⟩

/-- C39: if the place recorded for the redo data is inside the record and after the header, exactly the
recorded bytes are returned (the undo data is in the same position). -/
theorem C39_inside (b : Bytes) :
    (32 ≤ redoOffsetField b → redoOffsetField b + redoLengthField b ≤ b.length →
      ∃ d, redoData b = .ok d ∧ d.length = redoLengthField b ∧ ∀ i, i < d.length → d[i]? = b[redoOffsetField b + i]?) ∧
    (32 ≤ undoOffsetField b → undoOffsetField b + undoLengthField b ≤ b.length →
      ∃ d, undoData b = .ok d ∧ d.length = undoLengthField b ∧ ∀ i, i < d.length → d[i]? = b[undoOffsetField b + i]?) := by
  have key : ∀ o n : Nat, 32 ≤ o → o + n ≤ b.length → ∃ d : Bytes,
      (if n = 0 then Except.ok [] else if 1 ≤ o ∧ o ≤ 31 then .error .ClientException else .ok ((b.drop o).take n)) = Except.ok (ε := Exc) d ∧
      d.length = n ∧ ∀ i, i < d.length → d[i]? = b[o + i]? := by
    intro o n ho hn
    have hl : ((b.drop o).take n).length = n := by rw [List.length_take, List.length_drop]; omega
    refine ⟨(b.drop o).take n, ?_, hl, fun i hi => ?_⟩
    · by_cases h0 : n = 0
      · rw [if_pos h0, h0]; simp
      · rw [if_neg h0, if_neg (by omega)]
    · rw [List.getElem?_take, if_pos (by omega), List.getElem?_drop]
  obtain ⟨h1, h2⟩ := C39_redo_undo_partial b
  rw [h1, h2]
  exact ⟨key _ _, key _ _⟩

theorem lcnsLoop_eq (b : Bytes) : ∀ (n i : Nat) (acc : List Int), lcnsLoop b n i acc =
    if n = 0 ∨ 32 + 8 * (i + n) ≤ b.length then
      .ok (acc ++ (List.range' i n).map fun k => leInt (slice b (32 + 8 * k) (40 + 8 * k)))
    else .error .ClientException
  | 0, i, acc => by rw [if_pos (.inl rfl)]; simp [lcnsLoop]
  | n + 1, i, acc => by
    unfold lcnsLoop
    dsimp only
    rw [Nat.mul_comm i 8]
    by_cases hl : (slice b (32 + 8 * i) (40 + 8 * i)).length ≠ 8
    · rw [if_pos hl, if_neg]
      rw [slice_length] at hl
      omega
    · rw [if_neg hl, lcnsLoop_eq b n (i + 1)]
      rw [slice_length] at hl
      by_cases hc : 32 + 8 * (i + (n + 1)) ≤ b.length
      · rw [if_pos (by right; omega), if_pos (.inr hc), List.range'_succ, List.map_cons, List.append_assoc]; rfl
      · rw [if_neg (by omega), if_neg (by omega)]

/-- C39: the list of cluster numbers: the recorded number of them, read one after the other from the
end of the header, if they are inside the record; otherwise the record is rejected. -/
theorem C39_lcns (b : Bytes) : lcnsForPage b =
    if lcnCountField b = 0 ∨ 32 + 8 * lcnCountField b ≤ b.length then
      .ok ((List.range (lcnCountField b)).map fun k => leInt (slice b (32 + 8 * k) (40 + 8 * k)))
    else .error .ClientException := by
  show lcnsLoop b (lcnCountField b) 0 [] = _
  rw [lcnsLoop_eq, List.range_eq_range', Nat.zero_add]; rfl

/-- A record whose redo data is recorded at 32, with 8 bytes, and one cluster number. -/
def demoLogRecord : Bytes :=
  [7, 0, 7, 0, 40, 0, 8, 0, 40, 0, 8, 0, 0, 0, 1, 0] ++ zeros 16 ++ [5, 0, 0, 0, 0, 0, 0, 0, 1, 2, 3, 4, 5, 6, 7, 8]
example : redoData demoLogRecord = .ok [1, 2, 3, 4, 5, 6, 7, 8] ∧ lcnsForPage demoLogRecord = .ok [5] ∧
    32 ≤ redoOffsetField demoLogRecord ∧ redoOffsetField demoLogRecord + redoLengthField demoLogRecord ≤ demoLogRecord.length := by
  decide +kernel

/-- C39 as it is stated does not hold: a record cut in the middle of its redo data gives the first part
of the data, and a record with the offset zero gives its own header. -/
theorem C39_cut_or_header_accepted :
    redoData (demoLogRecord.take 44) = .ok [1, 2, 3, 4] ∧
    redoData ([7, 0, 7, 0, 0, 0, 8, 0] ++ zeros 24) = .ok [7, 0, 7, 0, 0, 0, 8, 0] := by
  decide +kernel

/-! ### C40 -/

/-- An entry of a dump of attribute names: the index, the length of the name in bytes, the name and a
null character. -/
def nameEntry (e : Nat × Bytes) : Bytes := natLE 2 e.1 ++ (natLE 2 e.2.length ++ (e.2 ++ [0, 0]))

/-- A dump: the entries, then something too short to be an entry (the terminator, for example). -/
def namesDump (entries : List (Nat × Bytes)) (tail : Bytes) : Bytes := (entries.map nameEntry).flatten ++ tail

theorem nameEntry_length (e : Nat × Bytes) : (nameEntry e).length = 4 + e.2.length + 2 := by
  simp only [nameEntry, List.length_append, natLE_length, List.length_cons, List.length_nil]; omega

/-- C40: looking up a name in a well-formed dump (entries with a 16-bit index and a name of 2 to 65535
bytes) gives the name of the first entry with that index, and nothing if there is none. -/
theorem C40_names (entries : List (Nat × Bytes)) (tail : Bytes) (index : Nat)
    (hw : ∀ e ∈ entries, e.1 < 65536 ∧ 2 ≤ e.2.length ∧ e.2.length < 65536) (ht : tail.length < 8) :
    findName (namesDump entries tail) index = (entries.find? (·.1 = index)).map fun e => utf16Decode e.2 := by
  unfold findName
  induction entries with
  | nil =>
    rw [findNameLoop, if_pos]
    · rfl
    · show tail.length < 8; exact ht
  | cons e es ih =>
    obtain ⟨h1, h2, h3⟩ := hw e (List.mem_cons_self ..)
    have hd : namesDump (e :: es) tail = nameEntry e ++ namesDump es tail := by
      unfold namesDump; rw [List.map_cons, List.flatten_cons, List.append_assoc]
    have hl := nameEntry_length e
    have f0 : u16 (namesDump (e :: es) tail) 0 = e.1 := by
      unfold u16
      rw [hd, slice_append_left _ _ _ _ (by omega)]
      unfold nameEntry
      rw [slice_append_left _ _ _ _ (by rw [natLE_length]; omega), slice_all (by rw [natLE_length]; omega)]
      exact leNat_natLE_of_lt h1
    have f2 : u16 (namesDump (e :: es) tail) 2 = e.2.length := by
      unfold u16
      rw [hd, slice_append_left _ _ _ _ (by omega)]
      unfold nameEntry
      rw [slice_append_right _ _ _ _ (by rw [natLE_length]; omega), natLE_length,
        slice_append_left _ _ _ _ (by rw [natLE_length]; omega), slice_all (by rw [natLE_length]; omega)]
      exact leNat_natLE_of_lt h3
    have f4 : slice (namesDump (e :: es) tail) 4 (4 + e.2.length) = e.2 := by
      rw [hd, slice_append_left _ _ _ _ (by omega)]
      unfold nameEntry
      rw [slice_append_right _ _ _ _ (by rw [natLE_length]; omega), natLE_length,
        slice_append_right _ _ _ _ (by rw [natLE_length]; omega), natLE_length,
        slice_append_left _ _ _ _ (by omega), slice_all (by omega)]
    have hlen : 8 ≤ (namesDump (e :: es) tail).length := by rw [hd, List.length_append]; omega
    rw [findNameLoop, if_neg (by omega), f0, f2, f4]
    by_cases hi : e.1 = index
    · rw [if_pos hi, List.find?_cons_of_pos (p := fun e : Nat × Bytes => decide (e.1 = index)) (by simpa using hi)]; rfl
    · rw [if_neg hi, List.find?_cons_of_neg (p := fun e : Nat × Bytes => decide (e.1 = index)) (by simpa using hi)]
      rw [hd, List.drop_append, List.drop_eq_nil_of_le (by omega), List.nil_append, hl, Nat.sub_self, List.drop_zero]
      exact ih fun e' he => hw e' (List.mem_cons_of_mem _ he)

example : findName (namesDump [(24, [0x41, 0]), (64, [0x24, 0, 0x49, 0])] [0, 0, 0, 0]) 64 = some [0x24, 0x49] := by decide +kernel

/-- C40: a name that is found for any buffer is a part of the buffer: there are an entry position and a
recorded length with which it is recorded. -/
theorem C40_names_sound (dump : Bytes) (index : Nat) (name : Str) (h : findName dump index = some name) :
    ∃ pos, pos + 8 ≤ dump.length ∧ leNat (slice dump pos (pos + 2)) = index ∧
      name = utf16Decode (slice dump (pos + 4) (pos + 4 + leNat (slice dump (pos + 2) (pos + 4)))) := by
  unfold findName at h
  fun_induction findNameLoop dump index with
  | case1 => cases h
  | case2 rest hl hi =>
    cases h
    refine ⟨0, by omega, hi, ?_⟩
    rw [Nat.zero_add, Nat.zero_add]; rfl
  | case3 rest hl hi ih =>
    obtain ⟨pos, h1, h2, h3⟩ := ih h
    have hs : ∀ i j, slice (rest.drop (4 + u16 rest 2 + 2)) i j = slice rest (4 + u16 rest 2 + 2 + i) (4 + u16 rest 2 + 2 + j) := by
      intro i j
      unfold slice
      rw [List.drop_drop]
      congr 1
      omega
    rw [List.length_drop] at h1
    rw [hs] at h2 h3
    rw [hs, ← Nat.add_assoc, ← Nat.add_assoc, ← Nat.add_assoc] at h3
    exact ⟨4 + u16 rest 2 + 2 + pos, by omega, h2, h3⟩

/-- C40: a file reference found in a dump of open attributes: the index is the position of the entry.
The entry must be whole (40 bytes, or 44 in the old format), else ClientException is raised. -/
theorem C40_references (version : Nat) (dump : Bytes) (index : Nat) :
    findFileReference version dump index =
      if version = 0 then
        (if index + 44 ≤ dump.length then .ok (leNat (slice dump (index + 8) (index + 16))) else .error .ClientException)
      else
        (if index + 40 ≤ dump.length then .ok (leNat (slice dump (index + 16) (index + 24))) else .error .ClientException) := by
  have hs : ∀ i j, slice (dump.drop index) i j = slice dump (index + i) (index + j) := by
    intro i j
    unfold slice
    rw [List.drop_drop]
    congr 1
    omega
  unfold findFileReference openAttributeReference u64
  rw [hs, hs, List.length_drop]
  by_cases h1 : index ≥ dump.length
  · have h44 : ¬ index + 44 ≤ dump.length := by omega
    have h40 : ¬ index + 40 ≤ dump.length := by omega
    rw [if_pos h1, if_neg h44, if_neg h40, ite_self]
  · rw [if_neg h1]
    by_cases h2 : version = 0
    · rw [if_neg (by omega), if_pos h2]
      by_cases h3 : index + 44 ≤ dump.length
      · rw [if_neg (by omega), if_pos h3]
      · rw [if_pos (by omega), if_neg h3]
    · rw [if_pos (by omega), if_neg h2]
      by_cases h3 : index + 40 ≤ dump.length
      · rw [if_neg (by omega), if_pos h3]
      · rw [if_pos (by omega), if_neg h3]

example : findFileReference 1 (zeros 24 ++ (zeros 16 ++ natLE 8 77 ++ zeros 16)) 24 = .ok 77 := by decide +kernel

end Verif.Props
