/-
The cells of the tables of FAT and exFAT volumes.
-/
import Verif.Model.Scripts.Fat
import Verif.Spec.FatTable
import Verif.Spec.FATNames
import Verif.Proof.Calendar
namespace Verif.Props
open Verif.Scripts Verif.Spec.Text Verif.Spec.FatTable Verif.Spec.FAT

theorem text_eq (s : String) : text s = textCell s := rfl

theorem formatBoolean_eq (b : Option Bool) : formatBoolean b = answer b := by
  cases b with
  | none => rfl
  | some b => cases b <;> rfl

theorem validDay_of {y m d : Nat} (h : ValidDate y m d) : validDay y m d ∧ y < 10 ^ 4 ∧ m < 10 ^ 2 ∧ d < 10 ^ 2 := by
  obtain ⟨h1, h2, h3, h4, h5, h6⟩ := h
  have key : Verif.Spec.FAT.monthLength y m = Verif.Spec.Text.monthLength y m ∧ Verif.Spec.FAT.monthLength y m ≤ 31 := by
    unfold Verif.Spec.FAT.monthLength Verif.Spec.Text.monthLength
    have hm : m = 1 ∨ m = 2 ∨ m = 3 ∨ m = 4 ∨ m = 5 ∨ m = 6 ∨ m = 7 ∨ m = 8 ∨ m = 9 ∨ m = 10 ∨ m = 11 ∨ m = 12 := by omega
    rcases hm with rfl | rfl | rfl | rfl | rfl | rfl | rfl | rfl | rfl | rfl | rfl | rfl <;> try exact ⟨rfl, Nat.le_of_ble_eq_true rfl⟩
    refine ⟨?_, ?_⟩
    · show (if (y % 4 = 0 ∧ y % 100 ≠ 0) ∨ y % 400 = 0 then 29 else 28) = if leap y then 29 else 28
      by_cases h : (y % 4 = 0 ∧ y % 100 ≠ 0) ∨ y % 400 = 0
      · rw [if_pos h, if_pos (by unfold leap; omega)]
      · rw [if_neg h, if_neg (by unfold leap; omega)]
    · show (if (y % 4 = 0 ∧ y % 100 ≠ 0) ∨ y % 400 = 0 then 29 else 28) ≤ 31
      split <;> omega
  exact ⟨⟨by omega, h3, h4, h5, by omega⟩, by omega, by omega, by omega⟩

/-- A date and time as `strftime` writes it. -/
theorem dateTimeText_denotes (t : FAT.DateTime) (hd : ValidDate t.date.year t.date.month t.date.day) (hh : t.time.hour < 24)
    (hm : t.time.minute < 60) (hs : t.time.second < 60) (hu : t.microsecond < 1000000) : Denotes (dateTimeText t) (moment t) := by
  obtain ⟨h1, h2, h3, h4⟩ := validDay_of hd
  refine ⟨fixedDec 4 t.date.year, fixedDec 2 t.date.month, fixedDec 2 t.date.day, fixedDec 2 t.time.hour, fixedDec 2 t.time.minute,
    fixedDec 2 t.time.second, fixedDec 6 t.microsecond, t.date.year, t.date.month, t.date.day, t.time.hour, t.time.minute, t.time.second, t.microsecond,
    ?_, ?_⟩
  · unfold dateTimeText dateText
    simp only [List.append_assoc]
  · simp only [Proof.Calendar.fixedDec_length, true_and]
    exact ⟨Proof.Calendar.decimalValue_fixedDec _ _ h2, Proof.Calendar.decimalValue_fixedDec _ _ h3, Proof.Calendar.decimalValue_fixedDec _ _ h4,
      Proof.Calendar.decimalValue_fixedDec _ _ (by omega), Proof.Calendar.decimalValue_fixedDec _ _ (by omega),
      Proof.Calendar.decimalValue_fixedDec _ _ (by omega), Proof.Calendar.decimalValue_fixedDec _ _ (by omega), h1, hh, hm, hs, hu, rfl⟩

theorem formatDateTime_cell (t : Option FAT.DateTime)
    (h : ∀ d c μs, t = some ⟨d, c, μs⟩ → ValidDate d.year d.month d.day ∧ c.hour < 24 ∧ c.minute < 60 ∧ c.second < 60 ∧ μs < 1000000) :
    TimeCell t (formatDateTime t) := by
  cases t with
  | none => rfl
  | some t =>
    obtain ⟨h1, h2, h3, h4, h5⟩ := h t.date t.time t.microsecond rfl
    exact ⟨_, rfl, dateTimeText_denotes t h1 h2 h3 h4 h5⟩

theorem formatDate_cell (d : Option FAT.Date) (h : ∀ d', d = some d' → ValidDate d'.year d'.month d'.day) : DateCell d (formatDate d) := by
  cases d with
  | none => rfl
  | some d =>
    refine ⟨_, rfl, ?_⟩
    have := dateTimeText_denotes ⟨d, ⟨0, 0, 0⟩, 0⟩ (h d rfl) (by decide : (0 : Nat) < 24) (by decide : (0 : Nat) < 60) (by decide : (0 : Nat) < 60) (by decide : (0 : Nat) < 1000000)
    unfold dateTimeText at this
    simp only [List.append_assoc] at this
    exact this

/-! ### Literals -/

theorem hexDigit_lower : ∀ d < 16, hexDigit (lowerHexDigit d) = some d := by decide

theorem readBytes_backslash (q c : Nat) (rest : Str) (h : c = 0x5C ∨ c = 0x27 ∨ c = 0x22) :
    readBytes q (0x5C :: c :: rest) = (readBytes q rest).map (UInt8.ofNat c :: ·) := by
  rcases h with rfl | rfl | rfl <;> rfl

theorem readBytes_plain (q c : Nat) (rest : Str) (hr : rest ≠ []) (h : c ≠ 0x5C) (hq : c ≠ q) (h1 : 0x20 ≤ c) (h2 : c < 0x7F) :
    readBytes q (c :: rest) = (readBytes q rest).map (UInt8.ofNat c :: ·) := by
  cases rest with
  | nil => exact absurd rfl hr
  | cons d rest =>
    rw [readBytes, if_neg (by omega)]
    · intro _ _ _ h'
      exact absurd h' h
    · intro h'
      exact absurd h' h

theorem readBytes_reprByte (q : Nat) (hq : q = 0x27 ∨ q = 0x22) (b : UInt8) (rest : Str) (hr : rest ≠ []) :
    readBytes q (reprByte q b ++ rest) = (readBytes q rest).map (b :: ·) := by
  have hb : UInt8.ofNat b.toNat = b := by simp
  have hlt : b.toNat < 256 := b.toNat_lt
  have hof : ∀ n, n < 256 → b.toNat = n → b = UInt8.ofNat n := fun n _ h => by rw [← h, hb]
  unfold reprByte
  dsimp only
  by_cases h1 : b.toNat = q ∨ b.toNat = 0x5C
  · rw [if_pos h1]
    rw [List.cons_append, List.cons_append, List.nil_append, readBytes_backslash _ _ _ (by omega), hb]
  rw [if_neg h1]
  by_cases h2 : b.toNat = 0x09
  · rw [if_pos h2, hof _ (by omega) h2]; rfl
  rw [if_neg h2]
  by_cases h3 : b.toNat = 0x0A
  · rw [if_pos h3, hof _ (by omega) h3]; rfl
  rw [if_neg h3]
  by_cases h4 : b.toNat = 0x0D
  · rw [if_pos h4, hof _ (by omega) h4]; rfl
  rw [if_neg h4]
  by_cases h5 : b.toNat < 0x20 ∨ b.toNat ≥ 0x7F
  · rw [if_pos h5]
    show readBytes q (0x5C :: 0x78 :: lowerHexDigit (b.toNat / 16) :: lowerHexDigit (b.toNat % 16) :: rest) = _
    rw [readBytes, hexDigit_lower _ (by omega), hexDigit_lower _ (by omega)]
    have : UInt8.ofNat (16 * (b.toNat / 16) + b.toNat % 16) = b := by rw [Nat.div_add_mod, hb]
    cases readBytes q rest with
    | none => rfl
    | some l => simp only [Option.map_some, this]
  · rw [if_neg h5]
    rw [List.cons_append, List.nil_append, readBytes_plain _ _ _ hr (by omega) (by omega) (by omega) (by omega), hb]

theorem readBytes_repr (q : Nat) (hq : q = 0x27 ∨ q = 0x22) : ∀ b : Bytes, readBytes q (b.flatMap (reprByte q) ++ [q]) = some b
  | [] => by simp [readBytes]
  | x :: b => by
    rw [List.flatMap_cons, List.append_assoc, readBytes_reprByte q hq x _ (by simp), readBytes_repr q hq b]
    rfl

/-- The bytes can be read from their literal. -/
theorem literal_repr (b : Bytes) : literal (bytesRepr b) = some b := by
  unfold bytesRepr
  dsimp only
  have hq : (if (0x27 : UInt8) ∈ b ∧ (0x22 : UInt8) ∉ b then 0x22 else 0x27) = 0x27 ∨ (if (0x27 : UInt8) ∈ b ∧ (0x22 : UInt8) ∉ b then 0x22 else 0x27) = (0x22 : Nat) := by
    split
    · exact .inr rfl
    · exact .inl rfl
  generalize (if (0x27 : UInt8) ∈ b ∧ (0x22 : UInt8) ∉ b then 0x22 else (0x27 : Nat)) = q at hq
  rw [List.append_assoc, List.cons_append, List.cons_append, List.nil_append, literal, if_pos hq, readBytes_repr q hq]

end Verif.Props
