/-
C102: the table of the files of a FAT12, FAT16 or FAT32 volume (`fat_parser`).
-/
import Verif.Proof.FatText
import Verif.Proof.Tables
import Verif.Props.C81
namespace Verif.Props
open Verif.Scripts Verif.FAT Verif.Spec.Text Verif.Spec.FatTable Verif.Spec.FAT

/-- The dates and times of a file are valid. -/
def ValidTimes (e : FileEntry) : Prop :=
  (∀ d, e.atime = some d → ValidDate d.year d.month d.day) ∧
  (∀ d c μs, e.mtime = some ⟨d, c, μs⟩ → ValidDate d.year d.month d.day ∧ c.hour < 24 ∧ c.minute < 60 ∧ c.second < 60 ∧ μs < 1000000) ∧
  (∀ d c μs, e.ctime = some ⟨d, c, μs⟩ → ValidDate d.year d.month d.day ∧ c.hour < 24 ∧ c.minute < 60 ∧ c.second < 60 ∧ μs < 1000000)

theorem filesOf_mem {codec : Codec} {isFat32 : Bool} {p : Prop} {l : List Bytes} {files : List FileEntry} (h : FilesOf codec isFat32 p l files)
    {e : FileEntry} (he : e ∈ files) : ∃ slot ∈ l, ∃ afterNull, Listed slot ∧ Describes codec isFat32 slot afterNull e := by
  induction h with
  | nil => cases he
  | skip _ _ ih =>
    obtain ⟨s, hs, r⟩ := ih he
    exact ⟨s, List.mem_cons_of_mem _ hs, r⟩
  | list hl hd _ ih =>
    rcases List.mem_cons.mp he with rfl | he
    · exact ⟨_, List.mem_cons_self, _, hl, hd⟩
    · obtain ⟨s, hs, r⟩ := ih he
      exact ⟨s, List.mem_cons_of_mem _ hs, r⟩

/-- A file in a listing has the fields of one of the slots. -/
theorem listDirectory_file {codec : Codec} {isFat32 : Bool} {buf : Bytes} {e : FileEntry} (he : .file e ∈ (listDirectory codec isFat32 false buf).items) :
    ∃ slot ∈ (List.range (buf.length / 32)).map fun i => slice buf (32 * i) (32 * i + 32), ∃ afterNull, Listed slot ∧ Describes codec isFat32 slot afterNull e := by
  by_cases h : buf.length < 512 ∨ buf.length % 512 ≠ 0
  · rw [C61_refused codec isFat32 false buf h] at he
    cases he
  · refine filesOf_mem (C61_files codec isFat32 false buf (by omega) (by omega)).2 ?_
    unfold filesIn
    rw [List.mem_filterMap]
    exact ⟨_, he, rfl⟩

theorem describes_times {codec : Codec} {isFat32 : Bool} {slot : Bytes} {p : Prop} {e : FileEntry} (h : Describes codec isFat32 slot p e) : ValidTimes e := by
  refine ⟨fun d hd => ((h.accessed d).mp hd).1, fun d c μs ht => ?_, fun d c μs ht => ?_⟩
  · obtain ⟨h1, _, ⟨h3, h4, h5, _⟩, _, h6⟩ := (h.modified d c μs).mp ht
    exact ⟨h1, h3, h4, h5, by omega⟩
  · obtain ⟨h1, _, s, ⟨h3, h4, h5, h5'⟩, _, h6, h7⟩ := (h.created d c μs).mp ht
    refine ⟨h1, h3, h4, ?_, h7⟩
    split at h6 <;> omega

/-- What is needed of the items of a walk. -/
def GoodItem : Item → Prop
  | .file e => ValidTimes e
  | .orphan none => False
  | .orphan (some _) => True

theorem reports_good {codec : Codec} {isFat32 : Bool} {buf : Bytes} {name : Str} {path : List Nat} {item x : Item}
    (hi : item ∈ (listDirectory codec isFat32 false buf).items) (h : Reports name path item x) : GoodItem x := by
  cases item with
  | orphan s =>
    cases s with
    | none => exact h.elim
    | some s => rw [show x = .orphan (some (joined name s)) from h]; trivial
  | file e =>
    obtain ⟨_, rfl⟩ := h
    obtain ⟨slot, _, p, _, hd⟩ := listDirectory_file hi
    exact (describes_times hd : ValidTimes e)

theorem fatRow_isRow (e : FileEntry) (path : Str) (h : ValidTimes e) : IsFatRow e path (fatRow e path) := by
  refine ⟨formatDateTime e.mtime, formatDate e.atime, formatDateTime e.ctime, bytesRepr e.shortNameRaw, ?_, formatDateTime_cell _ h.2.1,
    formatDate_cell _ h.1, formatDateTime_cell _ h.2.2, literal_repr _⟩
  unfold fatRow
  rw [formatBoolean_eq, formatBoolean_eq, formatBoolean_eq]

theorem attributes_label (a : Nat) : isVolumeLabel a = true ↔ a % 64 ≠ 15 ∧ a / 8 % 4 = 1 := by
  have key : ∀ r < 64, ((r &&& 0x3F = 0x0F) ↔ r = 15) ∧ ((r &&& 0x18 = 0x08) ↔ r / 8 % 4 = 1) := by decide +kernel
  have h1 : a &&& 0x3F = (a % 64) &&& 0x3F := by
    rw [show (0x3F : Nat) = 2 ^ 6 - 1 from rfl, Nat.and_two_pow_sub_one_eq_mod, Nat.and_two_pow_sub_one_eq_mod]; omega
  have h2 : a &&& 0x18 = (a % 64) &&& 0x18 := by
    rw [show (64 : Nat) = 2 ^ 6 from rfl, ← Nat.and_two_pow_sub_one_eq_mod, Nat.and_assoc]; rfl
  have := key (a % 64) (Nat.mod_lt _ (by decide))
  unfold isVolumeLabel
  rw [h1, h2]
  by_cases hl : a % 64 = 15
  · rw [if_pos (this.1.mpr hl)]
    exact ⟨(fun h => by cases h), fun h => absurd hl h.1⟩
  · rw [if_neg (fun h => hl (this.1.mp h)), decide_eq_true_eq, this.2]
    constructor
    · intro h; exact ⟨hl, by omega⟩
    · intro h; omega

theorem isLabelItem_iff (e : FileEntry) : isLabelItem e = true ↔ IsLabel (.file e) := by
  unfold isLabelItem IsLabel
  rw [Bool.and_eq_true, decide_eq_true_eq, attributes_label]

/-- The loop over the items. -/
theorem fatRows_spec : ∀ (items : List Item) (found : Bool), (∀ x ∈ items, GoodItem x) →
    (fatRows found items).err = none ∧ (fatRows found items).items.length = items.length ∧
    ∀ (i : Nat) item, items[i]? = some item → ∃ row, (fatRows found items).items[i]? = some row ∧ IsRow (found = false ∧ FirstLabel items i) item row
  | [], found, _ => ⟨rfl, rfl, fun i item h => by simp at h⟩
  | .orphan none :: rest, found, h => (h (.orphan none) List.mem_cons_self).elim
  | .orphan (some s) :: rest, found, h => by
    obtain ⟨h1, h2, h3⟩ := fatRows_spec rest found (fun x hx => h x (List.mem_cons_of_mem _ hx))
    rw [fatRows]
    refine ⟨h1, by simp only [Gen.cons, List.length_cons, h2], ?_⟩
    intro i item hi
    cases i with
    | zero =>
      cases hi
      exact ⟨_, rfl, rfl⟩
    | succ i =>
      obtain ⟨row, hr, hrow⟩ := h3 i item hi
      refine ⟨row, hr, ?_⟩
      have : FirstLabel (.orphan (some s) :: rest) (i + 1) ↔ FirstLabel rest i := by
        unfold FirstLabel
        refine and_congr Iff.rfl ⟨fun hall j item hj hji => hall (j + 1) item (by omega) hji, fun hall j item hj hji => ?_⟩
        cases j with
        | zero => cases hji; exact fun h => h
        | succ j => exact hall j item (by omega) hji
      rw [this]
      exact hrow
  | .file e :: rest, found, h => by
    have hgood := h _ List.mem_cons_self
    have hrest := fun x hx => h x (List.mem_cons_of_mem _ hx)
    rw [fatRows]
    by_cases hc : (!found && isLabelItem e) = true
    · rw [if_pos hc]
      rw [Bool.and_eq_true, isLabelItem_iff, Bool.not_eq_true'] at hc
      obtain ⟨h1, h2, h3⟩ := fatRows_spec rest true hrest
      refine ⟨h1, by simp only [Gen.cons, List.length_cons, h2], ?_⟩
      intro i item hi
      cases i with
      | zero =>
        cases hi
        refine ⟨_, rfl, _, fun _ => rfl, fun hn => ?_, fatRow_isRow e _ hgood⟩
        exact absurd ⟨hc.1, ⟨_, rfl, hc.2⟩, fun j item hj => by omega⟩ hn
      | succ i =>
        obtain ⟨row, hr, hrow⟩ := h3 i item hi
        refine ⟨row, hr, ?_⟩
        have : (found = false ∧ FirstLabel (.file e :: rest) (i + 1)) ↔ (true = false ∧ FirstLabel rest i) := by
          constructor
          · rintro ⟨_, _, hall⟩
            exact absurd hc.2 (hall 0 _ (by omega) rfl)
          · rintro ⟨h, _⟩; cases h
        rw [this]
        exact hrow
    · rw [if_neg hc]
      have hnot : found = false → ¬ IsLabel (.file e) := by
        intro hf hl
        exact hc (by rw [hf, isLabelItem_iff e |>.mpr hl]; rfl)
      obtain ⟨h1, h2, h3⟩ := fatRows_spec rest found hrest
      refine ⟨h1, by simp only [Gen.cons, List.length_cons, h2], ?_⟩
      intro i item hi
      cases i with
      | zero =>
        cases hi
        refine ⟨_, rfl, _, fun hl => ?_, fun _ => rfl, fatRow_isRow e _ hgood⟩
        obtain ⟨hf, ⟨item, hi, hl⟩, _⟩ := hl
        cases hi
        exact absurd hl (hnot hf)
      | succ i =>
        obtain ⟨row, hr, hrow⟩ := h3 i item hi
        refine ⟨row, hr, ?_⟩
        have : (found = false ∧ FirstLabel (.file e :: rest) (i + 1)) ↔ (found = false ∧ FirstLabel rest i) := by
          refine and_congr_right fun hf => ?_
          unfold FirstLabel
          refine and_congr Iff.rfl ⟨fun hall j item hj hji => hall (j + 1) item (by omega) hji, fun hall j item hj hji => ?_⟩
          cases j with
          | zero => cases hji; exact hnot hf
          | succ j => exact hall j item (by omega) hji
        rw [this]
        exact hrow

theorem fatTable_spec (g : Gen Item) (h : ∀ x ∈ g.items, GoodItem x) :
    ∃ rows, fatTable g = ⟨fatColumns :: rows, g.err⟩ ∧ rows.length = g.items.length ∧
      ∀ (i : Nat) item, g.items[i]? = some item → ∃ row, rows[i]? = some row ∧ IsRow (FirstLabel g.items i) item row := by
  obtain ⟨h1, h2, h3⟩ := fatRows_spec g.items false h
  refine ⟨(fatRows false g.items).items, ?_, h2, ?_⟩
  · unfold fatTable Gen.append
    rw [h1]
    dsimp only [Gen.cons]
    rw [List.append_nil]
    rfl
  · intro i item hi
    obtain ⟨row, hr, hrow⟩ := h3 i item hi
    refine ⟨row, hr, ?_⟩
    have : (false = false ∧ FirstLabel g.items i) ↔ FirstLabel g.items i := ⟨fun h => h.2, fun h => ⟨rfl, h⟩⟩
    rw [← this]
    exact hrow

/-- C102: on a volume that is taken for one of FAT12, FAT16 or FAT32, the table has the names of the columns and then one row
for each item of the walk over the volume, in the same order.  The row of a file has its fields, in the cells of the
dates and times are the dates and times, and the name on the disk can be read from its cell; the first label of the volume is
marked as such.  The program fails only when the walk does. -/
theorem C102_table (image : Bytes) (offset : Nat) (order : List Nat → List Nat) (horder : ∀ l, ∀ c ∈ order l, c ∈ l) (depth : Nat)
    (v : Volume) (hv : openVolume image offset none = .ok v) (table : Gen Row) (ht : fatParser image offset order depth = some table) :
    ∃ g rows, v.walk ascii false order depth = some g ∧ table = ⟨fatColumns :: rows, g.err⟩ ∧ rows.length = g.items.length ∧
      ∀ (i : Nat) item, g.items[i]? = some item → ∃ row, rows[i]? = some row ∧ IsRow (FirstLabel g.items i) item row := by
  unfold fatParser at ht
  rw [hv] at ht
  dsimp only at ht
  rw [Option.map_eq_some_iff] at ht
  obtain ⟨g, hg, rfl⟩ := ht
  obtain ⟨rows, h⟩ := fatTable_spec g (fun x hx => by
    obtain ⟨name, path, buf, item, _, hi, hr⟩ := C81_sound v ascii false order horder depth g hg x hx
    exact reports_good hi hr)
  exact ⟨g, rows, hg, h⟩

/-- C102: every row after the first one is that of an entry of a directory that can be reached from the root directory, or
of an orphaned one. -/
theorem C102_sound (image : Bytes) (offset : Nat) (order : List Nat → List Nat) (horder : ∀ l, ∀ c ∈ order l, c ∈ l) (depth : Nat)
    (v : Volume) (hv : openVolume image offset none = .ok v) (table : Gen Row) (ht : fatParser image offset order depth = some table)
    (row : Row) (hrow : row ∈ table.items.drop 1) :
    ∃ name path buf item x label, Reached v ascii false true name path buf ∧
      item ∈ (listDirectory ascii (decide (v.table.type = .fat32)) false buf).items ∧ Reports name path item x ∧ IsRow label x row := by
  obtain ⟨g, rows, hg, rfl, hl, h⟩ := C102_table image offset order horder depth v hv table ht
  simp only [List.drop_succ_cons, List.drop_zero] at hrow
  obtain ⟨i, hi, rfl⟩ := List.getElem_of_mem hrow
  have hx : g.items[i]? = some (g.items[i]'(by omega)) := List.getElem?_eq_getElem _
  obtain ⟨row, h1, h2⟩ := h i _ hx
  rw [List.getElem?_eq_getElem hi] at h1
  cases h1
  obtain ⟨name, path, buf, item, hr, hm, hrep⟩ := C81_sound v ascii false order horder depth g hg _ (List.getElem_mem (hl ▸ hi))
  exact ⟨name, path, buf, item, _, _, hr, hm, hrep, h2⟩

/-- C102: when the program ends without an exception, there is a row for every entry of every directory that can be reached
from the root directory. -/
theorem C102_complete (image : Bytes) (offset : Nat) (order : List Nat → List Nat) (horder : ∀ l, ∀ c ∈ order l, c ∈ l) (depth : Nat)
    (v : Volume) (hv : openVolume image offset none = .ok v) (table : Gen Row) (ht : fatParser image offset order depth = some table)
    (hend : table.err = none) (name : Str) (path : List Nat) (buf : Bytes) (hr : Reached v ascii false false name path buf) (item : Item)
    (hi : item ∈ (listDirectory ascii (decide (v.table.type = .fat32)) false buf).items) (x : Item) (hx : Reports name path item x) :
    ∃ row ∈ table.items, ∃ label, IsRow label x row := by
  obtain ⟨g, rows, hg, rfl, hl, h⟩ := C102_table image offset order horder depth v hv table ht
  have hmem := C81_complete v ascii false order depth g hg hend name path buf hr item hi x hx
  obtain ⟨i, hi', rfl⟩ := List.getElem_of_mem hmem
  obtain ⟨row, h1, h2⟩ := h i _ (List.getElem?_eq_getElem hi')
  exact ⟨row, List.mem_cons_of_mem _ (List.mem_of_getElem? h1), _, h2⟩

/-- A volume with a label, an encrypted file with dates and times, a deleted file, and a second label. -/
def labelledVolume : Bytes :=
  volumeOf [slotOf "MY DISK    " 0x08 0 0,
      "IT'S       ".toList.map (UInt8.ofNat ·.toNat) ++ [0x20, 0x01, 150] ++ natLE 2 (packTime 23 59 58) ++ natLE 2 (packDate 2024 2 29) ++ natLE 2 (packDate 1999 12 31) ++
        [0, 0] ++ natLE 2 (packTime 1 2 4) ++ natLE 2 (packDate 2107 1 1) ++ [0, 0] ++ natLE 4 12,
      0xE5 :: (slotOf "XLD     TXT" 0x20 0 7).drop 1, slotOf "OTHER      " 0x08 0 0, slotOf "A          " 0x10 2 0] [slotOf "F          " 0x20 0 5] []

/-- The hypotheses of the theorems above hold for this volume; this is its table. -/
example : (∃ v, openVolume labelledVolume 0 none = .ok v) ∧ fatParser labelledVolume 0 id 9 = some ⟨
    [fatColumns,
     [text "N", text "N", text "/MY DISK (Volume Label)", text "N/A", text "N/A", text "N/A", .int 0, text "N", text "b'MY DISK'"],
     [text "N", text "N", text "/IT'S", text "2107-01-01 01:02:04.000000", text "1999-12-31", text "2024-02-29 23:59:59.500000", .int 12, text "Y", text "b\"IT'S\""],
     [text "Y", text "N", text "/_LD.TXT", text "N/A", text "N/A", text "N/A", .int 7, text "N", text "b'_LD.TXT'"],
     [text "N", text "N", text "/OTHER", text "N/A", text "N/A", text "N/A", .int 0, text "N", text "b'OTHER'"],
     [text "N", text "Y", text "/A", text "N/A", text "N/A", text "N/A", .int 0, text "N", text "b'A'"],
     [text "N", text "N", text "/A/F", text "N/A", text "N/A", text "N/A", .int 5, text "N", text "b'F'"]], none⟩ := by
  refine ⟨?_, by decide +kernel⟩
  have h : (openVolume labelledVolume 0 none).toOption.isSome = true := by decide +kernel
  cases ho : openVolume labelledVolume 0 none with
  | error e => rw [ho] at h; cases h
  | ok v => exact ⟨v, rfl⟩

/-- A literal with escapes. -/
example : bytesRepr [0x05, 0x27, 0x22, 0x5C, 0x09, 0xE5] = Str.ofString "b'\\x05\\'\"\\\\\\t\\xe5'" := by decide

end Verif.Props
