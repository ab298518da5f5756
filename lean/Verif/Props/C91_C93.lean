/-
Properties C91-C93: what the command line programs write as text can be read back (ntfs_parser:10-74, 976-979).
-/
import Verif.Proof.Csv
import Verif.Proof.Calendar
import Verif.Proof.Hexdump
import Verif.Model.Attributes
namespace Verif.Props
open Verif.Scripts Verif.Spec.Text

/-! ### C91 -/

/-- C91: a dump has a line for every 16 bytes.  Line number `j` has the address `16 * j`, each of its bytes as two digits
in their own columns, and the printable characters; the last line is padded. -/
theorem C91_lines (b : Bytes) (h : b ≠ []) : ∃ lines : List Str, hexdump b = pyJoin [0x0A] lines ∧
    lines.length = (b.length + 15) / 16 ∧ ∀ j (hj : j < lines.length), IsDumpLine b j lines[j] := Proof.Hexdump.dump_lines h

/-- C91: no bytes are dumped as a hyphen. -/
theorem C91_empty : hexdump [] = Str.ofString "-" := rfl

/-- C91: different data have different dumps. -/
theorem C91_injective (a b : Bytes) (h : hexdump a = hexdump b) : a = b := Proof.Hexdump.hexdump_inj h

example : hexdump (("Hello, Wor").toList.map (UInt8.ofNat ∘ Char.toNat)) =
    Str.ofString "00000000  48 65 6C 6C 6F 2C 20 57-6F 72                    Hello, Wor" := by decide +kernel
example : hexdump (List.replicate 17 0xAB) = Str.ofString
    "00000000  AB AB AB AB AB AB AB AB-AB AB AB AB AB AB AB AB  ................\n00000010  AB                                               ." := by
  decide +kernel

/-! ### C92 -/

/-- The characters of a row are those of its fields, and the ones that CSV adds. -/
theorem csvRow_scalar {row : List Str} (h : ∀ f ∈ row, ∀ c ∈ f, scalar c) : ∀ c ∈ csvRow row, scalar c := by
  have hfield : ∀ alone (s : Str), (∀ c ∈ s, scalar c) → ∀ c ∈ csvField alone s, scalar c := by
    intro alone s hs c hc
    unfold csvField at hc
    split at hc
    · simp only [List.cons_append, List.mem_cons, List.mem_append, List.mem_flatMap] at hc
      rcases hc with hc | ⟨x, hx, hc⟩ | hc | hc
      · subst hc; simp [scalar]
      · split at hc
        · simp only [List.mem_cons, List.not_mem_nil, or_false, or_self] at hc; subst hc; simp [scalar]
        · rw [List.mem_singleton.mp hc]; exact hs x hx
      · subst hc; simp [scalar]
      · simp at hc
    · exact hs c hc
  have hjoin : ∀ l : List Str, (∀ f ∈ l, ∀ c ∈ f, scalar c) → ∀ c ∈ pyJoin [0x2C] l, scalar c := by
    intro l
    induction l with
    | nil => intro _ c hc; simp [pyJoin] at hc
    | cons s l ih =>
      intro hl c hc
      cases l with
      | nil => exact hl s (by simp) c (by simpa [pyJoin] using hc)
      | cons t l =>
        simp only [pyJoin, List.mem_append] at hc
        rcases hc with (hc | hc) | hc
        · exact hl s (by simp) c hc
        · rw [List.mem_singleton.mp hc]; simp [scalar]
        · exact ih (fun f hf => hl f (by simp [hf])) c hc
  intro c hc
  unfold csvRow at hc
  simp only [List.mem_append, List.mem_cons, List.not_mem_nil, or_false] at hc
  rcases hc with hc | hc | hc
  · refine hjoin _ ?_ c hc
    intro f hf
    obtain ⟨s, hs, rfl⟩ := List.mem_map.mp hf
    exact hfield _ s (h s hs)
  · subst hc; simp [scalar]
  · subst hc; simp [scalar]

/-- C92: whatever characters the fields have (commas, quotation marks, line ends), a reader of the UTF-8 CSV file gets back
exactly the rows that were written, field by field. -/
theorem C92_csv_round_trip (rows : List Row) (hne : ∀ r ∈ rows, r ≠ []) (hs : ∀ r ∈ rows, ∀ f ∈ r, ∀ c ∈ f.text, scalar c) :
    ∃ file text, csvFile rows = some file ∧ utf8Decode file = some text ∧ csvRows text = some (rows.map (·.map Cell.text)) := by
  have e : (rows.flatMap fun r => csvRow (r.map Cell.text)) = (rows.map (·.map Cell.text)).flatMap csvRow := by
    rw [List.flatMap_map]
  have hsc : ∀ c ∈ (rows.flatMap fun r => csvRow (r.map Cell.text)), scalar c := by
    intro c hc
    obtain ⟨r, hr, hc⟩ := List.mem_flatMap.mp hc
    refine csvRow_scalar ?_ c hc
    intro f hf
    obtain ⟨x, hx, rfl⟩ := List.mem_map.mp hf
    exact hs r hr x hx
  obtain ⟨file, h1, h2⟩ := Proof.Csv.utf8_scalars _ hsc
  refine ⟨file, _, h1, h2, ?_⟩
  rw [e]
  apply Proof.Csv.csvRows_rows
  intro r hr
  obtain ⟨x, hx, rfl⟩ := List.mem_map.mp hr
  intro h0
  exact hne x hx (List.map_eq_nil_iff.mp h0)

/-- C92: the names decoded from UTF-16 can always be written. -/
theorem C92_names (b : Bytes) : ∀ c ∈ utf16Decode b, scalar c := Proof.Csv.utf16Decode_scalars b

/-- C92: writing fails exactly for a character that is not a Unicode scalar value. -/
theorem C92_encoding (s : Str) : utf8 s = none ↔ ∃ c ∈ s, ¬ scalar c := Proof.Csv.utf8_none s

example : csvFile [[.str (Str.ofString "a,b"), .none, .int 17, .str [0x22, 0x0A, 0xE9, 0x1F600]]] =
    some (("\"a,b\",,17,\"\"\"\n").toList.map (UInt8.ofNat ∘ Char.toNat) ++ [0xC3, 0xA9, 0xF0, 0x9F, 0x98, 0x80, 0x22, 0x0D, 0x0A]) := by decide +kernel
example : csvRows (Str.ofString "\"a,b\",,17,\"\"\"\n\"\r\n") =
    some [[Str.ofString "a,b", [], Str.ofString "17", Str.ofString "\"\n"]] := by decide +kernel

/-! ### C93 -/

/-- C93: the text of a timestamp denotes that moment, to the microsecond. -/
theorem C93_text (t : Nat) (h : t < dayNumber 9999 12 31 * 86400000000 + 86400000000) : Denotes (formatTimestamp (some t)) t := by
  have e : dayNumber 9999 12 31 = 3652058 := by
    unfold dayNumber
    rw [Proof.Calendar.daysToYear_periods 9998 (a := 24) (b := 3) (c := 24) (d := 2) (by omega) (by omega) (by omega) (by omega)]
    decide +kernel
  rw [e] at h
  exact Proof.Calendar.strftime_denotes (by omega)

/-- C93: the texts of timestamps are ordered as the timestamps are. -/
theorem C93_order (t u : Nat) (ht : t < dayNumber 9999 12 31 * 86400000000 + 86400000000)
    (hu : u < dayNumber 9999 12 31 * 86400000000 + 86400000000) :
    Before (formatTimestamp (some t)) (formatTimestamp (some u)) ↔ t < u := by
  have e : dayNumber 9999 12 31 = 3652058 := by
    unfold dayNumber
    rw [Proof.Calendar.daysToYear_periods 9998 (a := 24) (b := 3) (c := 24) (d := 2) (by omega) (by omega) (by omega) (by omega)]
    decide +kernel
  rw [e] at ht hu
  exact Proof.Calendar.strftime_before (by omega) (by omega)

/-- The epochs of the three kinds of timestamps. -/
theorem epochs : epoch1601 = dayNumber 1601 1 1 * 86400000000 ∧ epoch1582 = dayNumber 1582 10 15 * 86400000000 ∧
    epoch1970 = dayNumber 1970 1 1 * 86400000000 := by
  unfold dayNumber epoch1601 epoch1582 epoch1970
  rw [Proof.Calendar.daysToYear_periods 1600 (a := 4) (b := 0) (c := 0) (d := 0) (by omega) (by omega) (by omega) (by omega),
    Proof.Calendar.daysToYear_periods 1581 (a := 3) (b := 3) (c := 20) (d := 1) (by omega) (by omega) (by omega) (by omega),
    Proof.Calendar.daysToYear_periods 1969 (a := 4) (b := 3) (c := 17) (d := 1) (by omega) (by omega) (by omega) (by omega)]
  decide +kernel

/-- C93: every FILETIME that is decoded is in the range of C93_text: its text denotes the decoded number of microseconds
since 1601-01-01. -/
theorem C93_filetime (filetime m : Nat) (h : Attributes.decodeFiletime filetime = some m) :
    Denotes (formatTimestamp (some (epoch1601 + m))) (dayNumber 1601 1 1 * 86400000000 + m) := by
  rw [← epochs.1]
  unfold Attributes.decodeFiletime at h
  split at h
  · next hlt =>
    cases h
    unfold Attributes.microsecondsFrom1601 at hlt
    exact Proof.Calendar.strftime_denotes (by unfold epoch1601; omega)
  · cases h

/-- C93: the same for a GUID timestamp, since 1582-10-15. -/
theorem C93_guid_time (time m : Nat) (h : Attributes.decodeGuidTime time = some m) :
    Denotes (formatTimestamp (some (epoch1582 + m))) (dayNumber 1582 10 15 * 86400000000 + m) := by
  rw [← epochs.2.1]
  unfold Attributes.decodeGuidTime at h
  split at h
  · next hlt =>
    cases h
    unfold Attributes.microsecondsFrom1582 at hlt
    exact Proof.Calendar.strftime_denotes (by unfold epoch1582; omega)
  · cases h

example : (Attributes.decodeFiletime 132539328000000001).map (fun m => formatTimestamp (some (epoch1601 + m))) =
    some (Str.ofString "2021-01-01 00:00:00.000000") := by decide +kernel
example : formatTimestamp (some (epoch1970 + 951827696123456)) = Str.ofString "2000-02-29 12:34:56.123456" := by decide +kernel
example : formatTimestamp none = Str.ofString "N/A" := rfl

end Verif.Props
