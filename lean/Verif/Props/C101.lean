/-
C101: the table of the timestamps found in a memory image (`ntfs_parser --mem`).
-/
import Verif.Model.Scripts.Mem
import Verif.Spec.MemTable
import Verif.Proof.Tables
import Verif.Props.C26_C27
import Verif.Props.C90_Concrete
import Verif.Props.C91_C93
namespace Verif.Props
open Verif.Scripts Verif.MFT Verif.Attributes Verif.Spec.Carver Verif.Spec.MemTable Verif.Spec.Text

theorem fixedDec_zero : ∀ w, fixedDec w 0 = List.replicate w 0x30
  | 0 => rfl
  | w + 1 => by rw [fixedDec, Nat.zero_div, fixedDec_zero w, List.replicate_succ']

/-- The first 19 characters, and the rest. -/
theorem strftime_split (t : Nat) : ∃ whole : Str, whole.length = 19 ∧ strftime t = whole ++ (0x2E :: fixedDec 6 (t % 1000000)) := by
  refine ⟨fixedDec 4 (ord2ymd (t / 86400000000)).year ++ [0x2D] ++ fixedDec 2 (ord2ymd (t / 86400000000)).month ++ [0x2D] ++
    fixedDec 2 (ord2ymd (t / 86400000000)).day ++ [0x20] ++
    fixedDec 2 (t / 3600000000 % 24) ++ [0x3A] ++ fixedDec 2 (t / 60000000 % 60) ++ [0x3A] ++ fixedDec 2 (t / 1000000 % 60), ?_, ?_⟩
  · simp only [List.length_append, Proof.Calendar.fixedDec_length, List.length_cons, List.length_nil]
  · unfold strftime
    simp only [List.append_assoc, List.cons_append, List.nil_append]

theorem strDatetime_text {t : Nat} (h : t < 3652059 * 86400000000) : IsText (strDatetime t) t := by
  have hd := Proof.Calendar.strftime_denotes h
  unfold strDatetime
  by_cases hz : t % 1000000 = 0
  · rw [if_pos hz]
    refine .inr ⟨hz, ?_⟩
    obtain ⟨whole, hw, e⟩ := strftime_split t
    rw [e, hz, fixedDec_zero] at hd
    rw [e, List.take_left' hw]
    exact hd
  · rw [if_neg hz]
    exact .inl ⟨hz, hd⟩

theorem datetimeCell_plausible {f : Nat} (h : Plausible f) : ∃ s, datetimeCell (decodeFiletime f) = .str s ∧ IsTime s f := by
  obtain ⟨u, hu, h1, h2⟩ := C26_error_partial f (by have := h.2; omega)
  rw [hu]
  refine ⟨_, rfl, u, hu, ?_, ?_, ?_⟩
  · rw [← epochs.1]
    refine strDatetime_text ?_
    unfold decodeFiletime at hu
    split at hu
    · next hlt =>
      cases hu
      unfold microsecondsFrom1601 at hlt
      unfold epoch1601
      omega
    · cases hu
  · split at h2 <;> omega
  · split at h1 <;> omega

theorem forEach_singles {α β : Type} (f : α → β) : ∀ l : List α, forEach (fun x => Gen.cons (f x) .done) l = ⟨l.map f, none⟩
  | [] => rfl
  | x :: l => by rw [forEach, forEach_singles f l]; rfl

theorem processMem_eq (image : Bytes) : processMem image =
    ⟨memHeader :: (carveTimestamps none image).1.items.map memRow, (carveTimestamps none image).1.err⟩ := by
  unfold processMem forGen
  rw [forEach_singles]
  simp only [Gen.cons, Gen.append, List.append_nil]

/-- C101: the table has the header.  When too few blocks are found to know where the timestamps are, `ValueError` is raised and there is no
row.  Otherwise, for the two positions that are known then, there is one row for each of some blocks of the image, in the order of their offsets,
with the reference and the timestamps that this block stores; the blocks are inside of the image, each in one page, and do not overlap;
every block with timestamps at these positions has its row or overlaps with an earlier one that has. -/
theorem C101_table (image : Bytes) :
    processMem image = ⟨[Spec.MemTable.header], some .ValueError⟩ ∨
    ∃ (d a : Nat) (places : List Nat) (rows : List Row), (carveTimestamps none image).2 = some (d, a) ∧
      processMem image = ⟨Spec.MemTable.header :: rows, none⟩ ∧ rows.length = places.length ∧
      (∀ (i p : Nat) (row : Row), places[i]? = some p → rows[i]? = some row → IsRow image d a p row) ∧
      (∀ p ∈ places, p % 2 = 0 ∧ image[p]? = some 2 ∧ image[p + 1]? = some 7 ∧ p % 4096 + d + 32 ≤ 4096 ∧ p % 4096 + a + 8 ≤ 4096 ∧
        p + d + 32 ≤ image.length ∧ p + a + 8 ≤ image.length) ∧
      places.Pairwise (fun p q => p + a + 8 ≤ q) ∧
      ∀ b q, BlockAt image d a b q → ∃ p ∈ places, p ≤ b + q ∧ b + q < p + a + 8 := by
  have hh : memHeader = Spec.MemTable.header := rfl
  obtain ⟨l0, hl0, -⟩ := scanImage_reported usable_none image 0
  obtain ⟨c1, c2⟩ := C89_guess none usable_none image l0 hl0
  rw [processMem_eq, hh]
  by_cases hlen : (l0.take 100).length < 25
  · left
    rw [c1 hlen]; rfl
  obtain ⟨d, a, -, -, -, hcase⟩ := c2 (by omega)
  split at hcase
  · left
    rw [hcase]; rfl
  right
  obtain ⟨l, -, h⟩ := hcase
  obtain ⟨d', a', hst, hs⟩ := C88_sound none usable_none image l _ h
  cases hst
  refine ⟨d, a, l.map (·.position), l.map memRow, by rw [h], by rw [h], by simp, ?_, ?_, ?_, ?_⟩
  · intro i p row hp hr
    rw [List.getElem?_map] at hp hr
    cases hx : l[i]? with
    | none => rw [hx] at hp; cases hp
    | some x =>
      rw [hx] at hp hr
      cases hp
      cases hr
      obtain ⟨-, -, -, -, -, -, -, -, ec, pc, em, pm, ee, pe, ea, pa, er, pr, ref⟩ := hs x (List.mem_of_getElem? hx)
      obtain ⟨sm, tm, wm⟩ := datetimeCell_plausible pm
      obtain ⟨sa, ta, wa⟩ := datetimeCell_plausible pa
      obtain ⟨sc, tc, wc⟩ := datetimeCell_plausible pc
      obtain ⟨se, te, we⟩ := datetimeCell_plausible pe
      obtain ⟨sr, tr, wr⟩ := datetimeCell_plausible pr
      refine ⟨sm, sa, sc, se, sr, ?_, wm, wa, wc, we, wr⟩
      unfold memRow
      rw [em, ea, ec, ee, er, ref, tm, ta, tc, te, tr]
  · intro p hp
    obtain ⟨x, hx, rfl⟩ := List.mem_map.1 hp
    obtain ⟨-, s1, s2, s3, s4, s5, s6, s7, -⟩ := hs x hx
    exact ⟨s1, s2, s3, s4, s6, s5, s7⟩
  · rw [List.pairwise_map]
    exact C88_apart none usable_none image l d a h
  · intro b q hb
    obtain ⟨x, hx, h1, h2⟩ := C88_complete none usable_none image l d a h b q hb
    exact ⟨_, List.mem_map.2 ⟨x, hx, rfl⟩, h1, h2⟩

/-- C101: the texts are ordered as the moments are, with and without a fraction. -/
theorem C101_order (t u : Nat) (ht : t < dayNumber 9999 12 31 * 86400000000 + 86400000000)
    (hu : u < dayNumber 9999 12 31 * 86400000000 + 86400000000) : Before (strDatetime t) (strDatetime u) ↔ t < u := by
  rw [← C93_order t u ht hu]
  show _ ↔ Before (strftime t) (strftime u)
  obtain ⟨wt, lt, et⟩ := strftime_split t
  obtain ⟨wu, lu, eu⟩ := strftime_split u
  have key : ∀ v w, strftime v = w ++ (0x2E :: fixedDec 6 (v % 1000000)) → w.length = 19 →
      strDatetime v = w ++ (if v % 1000000 = 0 then [] else 0x2E :: fixedDec 6 (v % 1000000)) := by
    intro v w e hl
    unfold strDatetime
    split
    · rw [e, List.take_left' hl, List.append_nil]
    · exact e
  rw [key t wt et lt, key u wu eu lu, et, eu, Proof.Calendar.Before_append _ _ (by omega), Proof.Calendar.Before_append _ _ (by omega)]
  have hb : Before (if t % 1000000 = 0 then [] else 0x2E :: fixedDec 6 (t % 1000000)) (if u % 1000000 = 0 then [] else 0x2E :: fixedDec 6 (u % 1000000)) ↔
      Before (0x2E :: fixedDec 6 (t % 1000000)) (0x2E :: fixedDec 6 (u % 1000000)) := by
    have h1 : Before (0x2E :: fixedDec 6 (t % 1000000)) (0x2E :: fixedDec 6 (u % 1000000)) ↔ t % 1000000 < u % 1000000 := by
      rw [Before, Proof.Calendar.Before_fixedDec 6 _ _ (by omega) (by omega)]
      omega
    rw [h1]
    by_cases a : t % 1000000 = 0 <;> by_cases b : u % 1000000 = 0
    · rw [if_pos a, if_pos b]; exact ⟨False.elim, fun h => by omega⟩
    · rw [if_pos a, if_neg b]; exact ⟨fun _ => by omega, fun _ => trivial⟩
    · rw [if_neg a, if_pos b]; exact ⟨False.elim, fun h => by omega⟩
    · rw [if_neg a, if_neg b, h1]
  rw [hb]

/-- The text of a whole second, and of another moment. -/
example : strDatetime (epoch1601 + 11644473600000000) = Str.ofString "1970-01-01 00:00:00" ∧
    strDatetime (epoch1601 + 11644473600000001) = Str.ofString "1970-01-01 00:00:00.000001" := by decide +kernel

/-- A table with 26 rows. -/
example : (processMem (carveSample 26 0)).err = none ∧ (processMem (carveSample 26 0)).items.length = 27 := by
  rw [processMem_eq, carveSample26_carved]
  simp

end Verif.Props
