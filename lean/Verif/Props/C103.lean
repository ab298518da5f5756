/-
C103 and C104: the table of the files of an exFAT volume (`fat_parser`), and when a volume is taken for one of exFAT.
-/
import Verif.Proof.FatText
import Verif.Proof.Tables
import Verif.Props.C80
import Verif.Props.ExFATSample
import Verif.Props.C102
namespace Verif.Props.ExFAT
open Verif.Scripts Verif.ExFAT Verif.Spec.Text Verif.Spec.FatTable Verif.Spec.ExFAT

/-- The text of an offset in the range of exFAT. -/
theorem zoneText_range (z : Int) (h1 : -64 ≤ z) (h2 : z < 64) : ZoneText (some z) (formatTzItem (some z)) := by
  have key : ∀ n : Nat, n < 64 →
      (n ≠ 0 → formatTzItem (some (n : Int)) = 0x2B :: decimal (15 * n)) ∧
      (formatTzItem (some (-(n + 1 : Nat) : Int)) = 0x2D :: decimal (15 * (n + 1))) ∧
      (decimal (15 * (n + 1))).head? ≠ some 0x30 ∧ decimalValue (decimal (15 * (n + 1))) = some (15 * (n + 1)) := by decide +kernel
  refine ⟨?_, ?_⟩
  · rintro rfl; rfl
  · intro hz
    by_cases hn : z < 0
    · have := key (z.natAbs - 1) (by omega)
      rw [show (-((z.natAbs - 1 + 1 : Nat)) : Int) = z by omega, show z.natAbs - 1 + 1 = z.natAbs by omega] at this
      refine ⟨_, _, by rw [if_pos hn]; exact this.2.1, this.2.2.1, this.2.2.2, ?_⟩
      rw [if_pos hn]; omega
    · have h3 := key (z.natAbs - 1) (by omega)
      have h4 := (key z.natAbs (by omega)).1 (by omega)
      rw [show z.natAbs - 1 + 1 = z.natAbs by omega] at h3
      rw [show ((z.natAbs : Nat) : Int) = z by omega] at h4
      refine ⟨_, _, by rw [if_neg hn]; exact h4, h3.2.2.1, h3.2.2.2, ?_⟩
      rw [if_neg hn]; omega

theorem zoneText_zone (b : Nat) (h : b < 256) : ZoneText (zone b) (formatTzItem (zone b)) := by
  unfold zone
  by_cases h1 : b < 128
  · rw [if_pos h1]; rfl
  rw [if_neg h1]
  by_cases h2 : b < 192
  · rw [if_pos h2]; exact zoneText_range _ (by omega) (by omega)
  · rw [if_neg h2]; exact zoneText_range _ (by omega) (by omega)

theorem timestamp_valid {value hundredths : Nat} {t : Option Verif.FAT.DateTime} (h : Timestamp value hundredths t) :
    ∀ d c μs, t = some ⟨d, c, μs⟩ → Verif.Spec.FAT.ValidDate d.year d.month d.day ∧ c.hour < 24 ∧ c.minute < 60 ∧ c.second < 60 ∧ μs < 1000000 := by
  intro d c μs ht
  obtain ⟨h1, _, s, ⟨h3, h4, h5, h5'⟩, _, h6, h7⟩ := (h d c μs).mp ht
  refine ⟨h1, h3, h4, ?_, h7⟩
  split at h6 <;> omega

/-- What is needed of the items of a walk. -/
def GoodItem : Item → Prop
  | .file e => ∃ primary stream names, Describes primary stream names e
  | .bitmap _ _ _ => False
  | _ => True

/-- The same for the item of a walk, which has another name. -/
def GoodNamed : Item → Prop
  | .file e => ∃ name, GoodItem (.file { e with name := name })
  | .bitmap _ _ _ => False
  | _ => True

theorem reports_good {isRoot : Bool} {buf : Bytes} {name : Str} {path : List Nat} {item x : Item}
    (hi : item ∈ (listDirectory isRoot buf).items) (h : Reports name path item x) : GoodNamed x := by
  cases item with
  | orphan s => rw [show x = _ from h]; trivial
  | label s => rw [show x = _ from h]; trivial
  | bitmap => exact h.elim
  | file e =>
    obtain ⟨_, rfl⟩ := h
    obtain ⟨_, primary, _, _, stream, names, _, _, hd, _⟩ := C69_set isRoot buf e hi
    exact ⟨e.name, primary, stream, names, hd⟩

theorem exfatRow_isRow (x : Item) (h : GoodNamed x) : ∃ row, exfatRow x = .ok row ∧ IsExfatRow x row := by
  cases x with
  | orphan s => exact ⟨_, rfl, rfl⟩
  | label s => exact ⟨_, rfl, rfl⟩
  | bitmap => exact h.elim
  | file e =>
    obtain ⟨name, primary, stream, names, hd⟩ := h
    refine ⟨_, rfl, formatDateTime e.mtime, formatDateTime e.atime, formatDateTime e.ctime, formatTzItem e.mtz, formatTzItem e.atz, formatTzItem e.ctz, ?_,
      formatDateTime_cell _ (timestamp_valid hd.modified), formatDateTime_cell _ (timestamp_valid hd.accessed), formatDateTime_cell _ (timestamp_valid hd.created), ?_, ?_, ?_⟩
    · rw [formatBoolean_eq, formatBoolean_eq, formatBoolean_eq]; rfl
    · rw [show e.mtz = _ from hd.modifiedZone]; exact zoneText_zone _ (u8_lt _ _)
    · rw [show e.atz = _ from hd.accessedZone]; exact zoneText_zone _ (u8_lt _ _)
    · rw [show e.ctz = _ from hd.createdZone]; exact zoneText_zone _ (u8_lt _ _)

/-- The rows of an item (all of them, for the loop of the program). -/
def exfatStep (item : Item) : Gen Row := match exfatRow item with | .ok row => .cons row .done | .error e => .fail e

theorem exfatTable_eq (g : Gen Item) : exfatTable g = .cons exfatHeader (forGen exfatStep g) := rfl

theorem exfatRows_spec : ∀ items : List Item, (∀ x ∈ items, GoodNamed x) →
    (forEach exfatStep items).err = none ∧ (forEach exfatStep items).items.length = items.length ∧
    ∀ (i : Nat) item, items[i]? = some item → ∃ row, (forEach exfatStep items).items[i]? = some row ∧ IsExfatRow item row
  | [], _ => ⟨rfl, rfl, fun i item h => by simp at h⟩
  | x :: rest, h => by
    obtain ⟨h1, h2, h3⟩ := exfatRows_spec rest (fun y hy => h y (List.mem_cons_of_mem _ hy))
    obtain ⟨row, hr, hrow⟩ := exfatRow_isRow x (h x List.mem_cons_self)
    have e : forEach exfatStep (x :: rest) = ⟨row :: (forEach exfatStep rest).items, (forEach exfatStep rest).err⟩ := by
      rw [forEach, show exfatStep x = .cons row .done by unfold exfatStep; rw [hr]]
      rfl
    rw [e]
    refine ⟨h1, by simp only [List.length_cons, h2], ?_⟩
    intro i item hi
    cases i with
    | zero => cases hi; exact ⟨row, rfl, hrow⟩
    | succ i => exact h3 i item hi

/-- C103: on a volume that is not one of FAT12, FAT16 or FAT32 but can be opened as exFAT, the table has the names of the
columns and then one row for each item of the walk over the volume, in the same order.  The row of a file has its fields, in the
cells of the times are the times, with the offsets from UTC in minutes.  The program fails only when the walk does. -/
theorem C103_table (image : Bytes) (offset : Nat) (order : List Nat → List Nat) (depth : Nat) (e : Exc) (hfat : Verif.FAT.openVolume image offset none = .error e)
    (he : e ∈ refusals) (v : Volume) (hv : openVolume image offset none = .ok v) (table : Gen Row) (ht : fatParser image offset order depth = some table) :
    ∃ g rows, v.walk false order depth = some g ∧ table = ⟨exfatColumns :: rows, g.err⟩ ∧ rows.length = g.items.length ∧
      ∀ (i : Nat) item, g.items[i]? = some item → ∃ row, rows[i]? = some row ∧ IsExfatRow item row := by
  unfold fatParser at ht
  rw [hfat] at ht
  dsimp only at ht
  rw [if_pos (show isFatException e = true from decide_eq_true he), hv] at ht
  dsimp only at ht
  rw [Option.map_eq_some_iff] at ht
  obtain ⟨g, hg, rfl⟩ := ht
  obtain ⟨h1, h2, h3⟩ := exfatRows_spec g.items (fun x hx => by
    obtain ⟨name, path, buf, item, _, hi, hr⟩ := C80_sound v false order depth g hg x hx
    exact reports_good hi hr)
  refine ⟨g, (forEach exfatStep g.items).items, hg, ?_, h2, h3⟩
  rw [exfatTable_eq]
  unfold forGen Gen.append
  rw [h1]
  dsimp only [Gen.cons]
  rw [List.append_nil]
  rfl

/-- C103: any other exception ends the program before anything is written, and so does one for exFAT. -/
theorem C103_refused (image : Bytes) (offset : Nat) (order : List Nat → List Nat) (depth : Nat) (e : Exc) (hfat : Verif.FAT.openVolume image offset none = .error e) :
    (e ∉ refusals → fatParser image offset order depth = some ⟨[], some e⟩) ∧
    (e ∈ refusals → ∀ e', openVolume image offset none = .error e' → fatParser image offset order depth = some ⟨[], some e'⟩) := by
  unfold fatParser
  rw [hfat]
  dsimp only
  constructor
  · intro he
    rw [if_neg (fun h : isFatException e = true => he (of_decide_eq_true h))]
    rfl
  · intro he e' hv
    rw [if_pos (show isFatException e = true from decide_eq_true he), hv]
    rfl

/-- Bytes that are a volume of neither kind. -/
example : Verif.FAT.openVolume [] 0 none = .error .BootSectorException ∧ Exc.BootSectorException ∈ refusals ∧
    openVolume [] 0 none = .error .BootRegionException := ⟨by rfl, by decide, by rfl⟩

/-- C103: every row after the first one is that of an entry of a directory that can be reached from the root directory, or of
an orphaned one. -/
theorem C103_sound (image : Bytes) (offset : Nat) (order : List Nat → List Nat) (depth : Nat) (e : Exc) (hfat : Verif.FAT.openVolume image offset none = .error e)
    (he : e ∈ refusals) (v : Volume) (hv : openVolume image offset none = .ok v) (table : Gen Row) (ht : fatParser image offset order depth = some table)
    (row : Row) (hrow : row ∈ table.items.drop 1) :
    ∃ name path buf item x, Reached v false true name path buf ∧ item ∈ (listDirectory (decide (name = [])) buf).items ∧
      Reports name path item x ∧ IsExfatRow x row := by
  obtain ⟨g, rows, hg, rfl, hl, h⟩ := C103_table image offset order depth e hfat he v hv table ht
  simp only [List.drop_succ_cons, List.drop_zero] at hrow
  obtain ⟨i, hi, rfl⟩ := List.getElem_of_mem hrow
  have hx : g.items[i]? = some (g.items[i]'(by omega)) := List.getElem?_eq_getElem _
  obtain ⟨row, h1, h2⟩ := h i _ hx
  rw [List.getElem?_eq_getElem hi] at h1
  cases h1
  obtain ⟨name, path, buf, item, hr, hm, hrep⟩ := C80_sound v false order depth g hg _ (List.getElem_mem (hl ▸ hi))
  exact ⟨name, path, buf, item, _, hr, hm, hrep, h2⟩

/-- C103: when the program ends without an exception, there is a row for every entry of every directory that can be reached
from the root directory. -/
theorem C103_complete (image : Bytes) (offset : Nat) (order : List Nat → List Nat) (depth : Nat) (e : Exc) (hfat : Verif.FAT.openVolume image offset none = .error e)
    (he : e ∈ refusals) (v : Volume) (hv : openVolume image offset none = .ok v) (table : Gen Row) (ht : fatParser image offset order depth = some table)
    (hend : table.err = none) (name : Str) (path : List Nat) (buf : Bytes) (hr : Reached v false false name path buf) (item : Item)
    (hi : item ∈ (listDirectory (decide (name = [])) buf).items) (x : Item) (hx : Reports name path item x) :
    ∃ row ∈ table.items, IsExfatRow x row := by
  obtain ⟨g, rows, hg, rfl, hl, h⟩ := C103_table image offset order depth e hfat he v hv table ht
  have hmem := C80_complete v false order depth g hg hend name path buf hr item hi x hx
  obtain ⟨i, hi', rfl⟩ := List.getElem_of_mem hmem
  obtain ⟨row, h1, h2⟩ := h i _ (List.getElem?_eq_getElem hi')
  exact ⟨row, List.mem_cons_of_mem _ (List.mem_of_getElem? h1), h2⟩

/-! ### C104 -/

theorem slice_zeros {buf : Bytes} {i j : Nat} (h1 : 11 ≤ i) (h2 : j ≤ 64) (hij : i ≤ j) (h : ∀ k, 11 ≤ k → k < 64 → buf[k]? = some 0) :
    slice buf i j = List.replicate (j - i) 0 := by
  apply List.ext_getElem?
  intro n
  rw [slice_getElem?]
  by_cases hn : n < j - i
  · rw [if_pos (by omega), h _ (by omega) (by omega), List.getElem?_replicate, if_pos hn]
  · rw [if_neg (by omega), List.getElem?_replicate, if_neg hn]

theorem u16_zero_of {buf : Bytes} {i : Nat} (h1 : 11 ≤ i) (h2 : i + 2 ≤ 64) (h : ∀ k, 11 ≤ k → k < 64 → buf[k]? = some 0) : u16 buf i = 0 := by
  unfold u16
  rw [slice_zeros h1 h2 (by omega) h, show i + 2 - i = 2 by omega]
  rfl

/-- A boot sector with zeros where FAT has its numbers is not taken for one of FAT. -/
theorem openBSBPB_zeros {buf : Bytes} (h : ∀ k, 11 ≤ k → k < 64 → buf[k]? = some 0) (relaxed : Bool) :
    Verif.FAT.openBSBPB buf relaxed = .error .BootSectorException := by
  have e14 : u16 buf 14 = 0 := u16_zero_of (by decide) (by decide) h
  have e22 : u16 buf 22 = 0 := u16_zero_of (by decide) (by decide) h
  have hcount : ∀ is32, Verif.FAT.getCountOfClusters ⟨buf, is32⟩ = .error .BootSectorException := by
    intro is32
    unfold Verif.FAT.getCountOfClusters Verif.FAT.BSBPB.fatSz16 Verif.FAT.BSBPB.rsvdSecCnt
    simp only [e14, e22, bind, Except.bind, Nat.lt_irrefl, gt_iff_lt, false_and, if_false, if_true]
  unfold Verif.FAT.openBSBPB
  split
  · rfl
  split
  · rfl
  unfold Verif.FAT.try32 Verif.FAT.isFileSystem32 Verif.FAT.try16 Verif.FAT.isFileSystem16
  simp only [hcount, bind, Except.bind, if_true]

theorem openFat_zeros {image : Bytes} {offset : Nat} (ho : offset < 2 ^ 63) (h : ∀ k, 11 ≤ k → k < 64 → image[offset + k]? = some 0) :
    Verif.FAT.openVolume image offset none = .error .BootSectorException := by
  unfold Verif.FAT.openVolume seekRead
  rw [if_neg (by simp), if_neg (by omega)]
  simp only [bind, Except.bind]
  rw [openBSBPB_zeros]
  intro k h1 h2
  rw [slice_getElem?, if_pos (by omega)]
  exact h k h1 h2

/-- C104: a volume with a consistent main boot region of exFAT is never taken for one of FAT: it is listed as exFAT, or the
exception is the one that opening it as exFAT raises. -/
theorem C104_exfat (image : Bytes) (offset : Nat) (ho : offset < 2 ^ 63) (h : Consistent (slice image offset (offset + 12 * 4096)))
    (order : List Nat → List Nat) (depth : Nat) :
    Verif.FAT.openVolume image offset none = .error .BootSectorException ∧
    (∀ v, openVolume image offset none = .ok v → fatParser image offset order depth = (v.walk false order depth).map exfatTable) ∧
    (∀ e, openVolume image offset none = .error e → fatParser image offset order depth = some (.fail e)) := by
  have hf : Verif.FAT.openVolume image offset none = .error .BootSectorException := by
    refine openFat_zeros ho fun k h1 h2 => ?_
    have := h.zeros k h1 h2
    rw [slice_getElem?, if_pos (by omega)] at this
    exact this
  refine ⟨hf, fun v hv => ?_, fun e he => ?_⟩
  · unfold fatParser
    rw [hf, hv]
    rfl
  · unfold fatParser
    rw [hf, he]
    rfl

/-- C104: so a volume that is listed as FAT has no consistent main boot region of exFAT. -/
theorem C104_fat (image : Bytes) (offset : Nat) (ho : offset < 2 ^ 63) (order : List Nat → List Nat) (depth : Nat) (table : Gen Row)
    (h : fatParser image offset order depth = some table) (hcolumns : table.items.head? = some fatColumns) :
    (∃ v, Verif.FAT.openVolume image offset none = .ok v) ∧ ¬ Consistent (slice image offset (offset + 12 * 4096)) := by
  have hv : ∃ v, Verif.FAT.openVolume image offset none = .ok v := by
    cases hf : Verif.FAT.openVolume image offset none with
    | ok v => exact ⟨v, rfl⟩
    | error e =>
      exfalso
      unfold fatParser at h
      rw [hf] at h
      dsimp only at h
      split at h
      · cases he : openVolume image offset none with
        | error e => rw [he] at h; cases h; cases hcolumns
        | ok v =>
          rw [he] at h
          dsimp only at h
          rw [Option.map_eq_some_iff] at h
          obtain ⟨g, _, rfl⟩ := h
          rw [exfatTable_eq, show (Gen.cons exfatHeader (forGen exfatStep g)).items.head? = some exfatHeader from rfl] at hcolumns
          exact absurd (Option.some.inj hcolumns) (by decide)
      · cases h; cases hcolumns
  refine ⟨hv, fun hc => ?_⟩
  obtain ⟨v, hv⟩ := hv
  rw [(C104_exfat image offset ho hc order depth).1] at hv
  cases hv

/-! ### A volume -/

/-- The part of the program after the boot region. -/
def tableAfter (object : Bytes) : Option (Gen Row) :=
  match openHeap object 0 none ⟨object⟩ with
  | .error e => some (.fail e)
  | .ok heap =>
    match findBitmap heap ⟨object⟩ with
    | .error e => some (.fail e)
    | .ok bitmap => (({ heap with br := ⟨object⟩, bitmap, backupUsed := false } : Volume).walk false id 99).map exfatTable

theorem tiny_consistent (root cluster4 cluster5 : List Bytes) (h1 : (bitmapEntry :: root).flatten.length ≤ 512) (h2 : cluster4.flatten.length ≤ 512)
    (h3 : cluster5.flatten.length ≤ 512) :
    Consistent (slice (tinyVolume root cluster4 cluster5) 0 (0 + 12 * 4096)) ∧
    selectBR (tinyVolume root cluster4 cluster5) 0 = .ok (⟨tinyVolume root cluster4 cluster5⟩, false) := by
  have hsum : (natLE 4 0xFFFFFFF8 ++ (natLE 4 0xFFFFFFFF ++ (natLE 4 0xFFFFFFFF ++ (natLE 4 0xFFFFFFFF ++ (natLE 4 0xFFFFFFFF ++ (natLE 4 0xFFFFFFFF ++ zeros 488)))))).length +
      (clusterOf (bitmapEntry :: root) ++ (0x0F :: zeros 511 ++ (clusterOf cluster4 ++ clusterOf cluster5))).length = 2560 := by
    simp only [List.length_append, natLE_length, zeros_length, List.length_cons, clusterOf_length h1, clusterOf_length h2, clusterOf_length h3]
  have hacc : openBR (tinyVolume root cluster4 cluster5) = .ok ⟨tinyVolume root cluster4 cluster5⟩ := tiny_accepted _ _ (by rw [hsum])
  have hsel : selectBR (tinyVolume root cluster4 cluster5) 0 = .ok (⟨tinyVolume root cluster4 cluster5⟩, false) := tiny_select _ _ (by rw [hsum]) (by rw [hsum]; decide)
  refine ⟨?_, hsel⟩
  have hlen : (tinyVolume root cluster4 cluster5).length ≤ 0 + 12 * 4096 := by
    unfold tinyVolume
    rw [tinyObject_length, hsum]
    decide
  rw [show slice (tinyVolume root cluster4 cluster5) 0 (0 + 12 * 4096) = tinyVolume root cluster4 cluster5 from slice_cut hlen]
  exact ((C65_accepted _ _).mp hacc).2.2.2

theorem fatParser_tiny (root cluster4 cluster5 : List Bytes) (h1 : (bitmapEntry :: root).flatten.length ≤ 512) (h2 : cluster4.flatten.length ≤ 512)
    (h3 : cluster5.flatten.length ≤ 512) : fatParser (tinyVolume root cluster4 cluster5) 0 id 99 = tableAfter (tinyVolume root cluster4 cluster5) := by
  obtain ⟨hc, hsel⟩ := tiny_consistent root cluster4 cluster5 h1 h2 h3
  obtain ⟨_, ha, hb⟩ := C104_exfat (tinyVolume root cluster4 cluster5) 0 (by decide) hc id 99
  unfold openVolume at ha hb
  rw [if_neg (by simp), hsel] at ha hb
  simp only [bind, Except.bind, pure, Except.pure] at ha hb
  unfold tableAfter
  cases h : openHeap (tinyVolume root cluster4 cluster5) 0 none ⟨tinyVolume root cluster4 cluster5⟩ with
  | error e => rw [h] at hb; exact hb e rfl
  | ok heap =>
    rw [h] at ha hb
    dsimp only at ha hb ⊢
    cases h' : findBitmap heap ⟨tinyVolume root cluster4 cluster5⟩ with
    | error e => rw [h'] at hb; exact hb e rfl
    | ok bitmap => rw [h'] at ha; exact ha _ rfl

/-- The label of a volume. -/
def labelEntry : Bytes := 0x83 :: 2 :: natLE 2 0x48 ++ natLE 2 0x44 ++ zeros 26

/-- A deleted file with times and offsets. -/
def timedSet : Bytes :=
  [5, 2, 0, 0, 0x20, 0, 0, 0] ++ natLE 2 (Verif.Spec.FAT.packTime 23 59 58) ++ natLE 2 (Verif.Spec.FAT.packDate 2024 2 29) ++
  natLE 2 (Verif.Spec.FAT.packTime 1 2 4) ++ natLE 2 (Verif.Spec.FAT.packDate 1980 1 1) ++ zeros 4 ++ [150, 5, 0x84, 0xF8, 0] ++ zeros 7 ++
  [0x40, 1, 0, 1] ++ zeros 4 ++ natLE 8 7 ++ zeros 8 ++ natLE 8 7 ++ [0x41, 0] ++ natLE 2 0x5A ++ zeros 28

/-- The hypotheses of the theorems above hold for this volume; this is its table. -/
example : (∃ v, openVolume (tinyVolume [labelEntry, timedSet, setOf true 30230 "A" 0x10 4 512] [setOf true 26558 "F" 0x20 0 0] []) 0 none = .ok v) ∧
    Consistent (slice (tinyVolume [labelEntry, timedSet, setOf true 30230 "A" 0x10 4 512] [setOf true 26558 "F" 0x20 0 0] []) 0 (0 + 12 * 4096)) ∧
    fatParser (tinyVolume [labelEntry, timedSet, setOf true 30230 "A" 0x10 4 512] [setOf true 26558 "F" 0x20 0 0] []) 0 id 99 = some ⟨
    [exfatColumns,
     [text "N", text "N", text "HD (Volume Label)", text "?", text "?", text "?", text "?/?/?", text "0", text "N"],
     [text "Y", text "N", text "/Z", text "1980-01-01 01:02:04.050000", text "N/A", text "2024-02-29 23:59:59.500000", text "-120/?/+60", .int 7, text "N"],
     [text "N", text "Y", text "/A", text "2025-03-15 15:41:34.000000", text "2025-03-15 15:41:34.000000", text "2025-03-15 15:41:34.000000", text "?/?/?", .int 512, text "N"],
     [text "N", text "N", text "/A/F", text "2025-03-15 15:41:34.000000", text "2025-03-15 15:41:34.000000", text "2025-03-15 15:41:34.000000", text "?/?/?", .int 0, text "N"]],
    none⟩ := by
  have h1 : (bitmapEntry :: [labelEntry, timedSet, setOf true 30230 "A" 0x10 4 512]).flatten.length ≤ 512 := by decide +kernel
  have h2 : [setOf true 26558 "F" 0x20 0 0].flatten.length ≤ 512 := by decide +kernel
  have h3 : ([] : List Bytes).flatten.length ≤ 512 := by decide
  obtain ⟨hc, hs⟩ := tiny_consistent _ _ _ h1 h2 h3
  refine ⟨?_, hc, ?_⟩
  · cases ho : openVolume (tinyVolume [labelEntry, timedSet, setOf true 30230 "A" 0x10 4 512] [setOf true 26558 "F" 0x20 0 0] []) 0 none with
    | ok v => exact ⟨v, rfl⟩
    | error e =>
      have := (C104_exfat _ 0 (by decide) hc id 99).2.2 e ho
      rw [fatParser_tiny _ _ _ h1 h2 h3] at this
      exact absurd this (by
        have key : (tableAfter (tinyVolume [labelEntry, timedSet, setOf true 30230 "A" 0x10 4 512] [setOf true 26558 "F" 0x20 0 0] [])).any (fun g => g.err.isNone) = true := by decide +kernel
        intro h; rw [h] at key; cases key)
  · rw [fatParser_tiny _ _ _ h1 h2 h3]
    decide +kernel

end Verif.Props.ExFAT
