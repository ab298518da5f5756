/-
Lemmas about CSV and UTF-8: what is written is read back.
-/
import Verif.Model.Scripts.Text
import Verif.Spec.Text
namespace Verif.Proof.Csv
open Verif.Scripts Verif.Spec.Text

theorem read_quoted (rest : Str) (row : List Str) : ∀ (s f : Str),
    readCsv ((s.flatMap fun c => if c = 0x22 then [0x22, 0x22] else [c]) ++ 0x22 :: rest) .quoted f row = readCsv rest .quote (f ++ s) row := by
  intro s
  induction s with
  | nil => intro f; simp [readCsv]
  | cons c s ih =>
    intro f
    rw [List.flatMap_cons]
    by_cases h : c = 0x22
    · rw [if_pos h]
      simp only [List.cons_append, List.nil_append, readCsv, if_true]
      rw [ih, h]; simp
    · rw [if_neg h]
      simp only [List.cons_append, List.nil_append, readCsv]
      rw [if_neg h, ih]; simp

theorem read_plain (rest : Str) (row : List Str) : ∀ (s f : Str), s.any needsQuotes = false →
    readCsv (s ++ rest) .plain f row = readCsv rest .plain (f ++ s) row := by
  intro s
  induction s with
  | nil => intro f _; simp
  | cons c s ih =>
    intro f h
    simp only [List.any_cons, Bool.or_eq_false_iff] at h
    have hc := h.1
    unfold needsQuotes at hc
    simp only [Bool.or_eq_false_iff, beq_eq_false_iff_ne, ne_eq] at hc
    simp only [List.cons_append, readCsv]
    rw [if_neg hc.1.1.2, if_neg hc.1.1.1, if_neg hc.1.2, if_neg hc.2, ih _ h.2]; simp

/-- The states in which a field may end. -/
def ends (st : CsvState) : Prop := st = .start ∨ st = .plain ∨ st = .quote

theorem read_comma {st : CsvState} (h : ends st) (rest f : Str) (row : List Str) :
    readCsv (0x2C :: rest) st f row = readCsv rest .start [] (row ++ [f]) := by
  rcases h with rfl | rfl | rfl <;> simp [readCsv]

theorem read_end {st : CsvState} (h : ends st) (rest f : Str) (row : List Str) :
    readCsv (0x0D :: 0x0A :: rest) st f row = (readCsv rest .start [] []).map ((row ++ [f]) :: ·) := by
  rcases h with rfl | rfl | rfl <;> simp [readCsv]

theorem read_field (alone : Bool) (s rest : Str) (row : List Str) : ∃ st, ends st ∧
    readCsv (csvField alone s ++ rest) .start [] row = readCsv rest st s row := by
  unfold csvField
  by_cases h : s.any needsQuotes ∨ (alone = true ∧ s = [])
  · rw [if_pos h]
    refine ⟨.quote, .inr (.inr rfl), ?_⟩
    simp only [List.cons_append, readCsv, if_true, List.append_assoc]
    rw [List.nil_append, read_quoted]; simp
  · rw [if_neg h]
    rw [not_or] at h
    have hq : s.any needsQuotes = false := by simpa using h.1
    cases s with
    | nil => exact ⟨.start, .inl rfl, by simp⟩
    | cons c s =>
      refine ⟨.plain, .inr (.inl rfl), ?_⟩
      simp only [List.any_cons, Bool.or_eq_false_iff] at hq
      have hc := hq.1
      unfold needsQuotes at hc
      simp only [Bool.or_eq_false_iff, beq_eq_false_iff_ne, ne_eq] at hc
      simp only [List.cons_append, readCsv]
      rw [if_neg hc.1.1.2, if_neg hc.1.1.1, if_neg hc.1.2, if_neg hc.2, read_plain _ _ _ _ hq.2]; simp

theorem read_row (alone : Bool) (rest : Str) : ∀ (fields : List Str) (row : List Str), fields ≠ [] →
    readCsv (pyJoin [0x2C] (fields.map (csvField alone)) ++ 0x0D :: 0x0A :: rest) .start [] row =
      (readCsv rest .start [] []).map ((row ++ fields) :: ·)
  | [], _, h => absurd rfl h
  | [s], row, _ => by
    obtain ⟨st, h1, h2⟩ := read_field alone s (0x0D :: 0x0A :: rest) row
    simp only [List.map_cons, List.map_nil, pyJoin]
    rw [h2, read_end h1]
  | s :: t :: more, row, _ => by
    have hr := read_row alone rest (t :: more) (row ++ [s]) (by simp)
    obtain ⟨st, h1, h2⟩ := read_field alone s ([0x2C] ++ (pyJoin [0x2C] ((t :: more).map (csvField alone)) ++ 0x0D :: 0x0A :: rest)) row
    simp only [List.map_cons, pyJoin, List.append_assoc] at hr h2 ⊢
    rw [h2, List.singleton_append, read_comma h1, hr]; simp

theorem csvRows_rows : ∀ rows : List (List Str), (∀ r ∈ rows, r ≠ []) → csvRows (rows.flatMap csvRow) = some rows
  | [], _ => rfl
  | r :: rows, h => by
    have ih := csvRows_rows rows fun r hr => h r (by simp [hr])
    unfold csvRows at ih ⊢
    rw [List.flatMap_cons, csvRow, List.append_assoc]
    have := read_row (decide (r.length = 1)) (rows.flatMap csvRow) r [] (h r (by simp))
    simp only [List.cons_append, List.nil_append] at this ⊢
    rw [this, ih]; rfl

/-! ### UTF-8 -/

theorem toNat_ofNat {n : Nat} (h : n < 256) : (UInt8.ofNat n).toNat = n := by
  rw [UInt8.toNat_ofNat', Nat.mod_eq_of_lt h]

theorem continuation_ofNat {n : Nat} (h : n < 64) : continuation (UInt8.ofNat (0x80 + n)) = some n := by
  unfold continuation
  rw [toNat_ofNat (by omega), if_pos (by omega)]
  rw [Nat.add_sub_cancel_left]

theorem utf8Char_scalar {c : Nat} (h : scalar c) : ∃ b, utf8Char c = some b ∧ ∀ rest, utf8Decode (b ++ rest) = (utf8Decode rest).map (c :: ·) := by
  unfold scalar at h
  unfold utf8Char
  by_cases h1 : c < 0x80
  · rw [if_pos h1]
    refine ⟨_, rfl, fun rest => ?_⟩
    rw [List.singleton_append, utf8Decode.eq_def]
    dsimp only
    rw [toNat_ofNat (by omega), if_pos h1]
  rw [if_neg h1]
  by_cases h2 : c < 0x800
  · rw [if_pos h2]
    refine ⟨_, rfl, fun rest => ?_⟩
    simp only [List.cons_append, List.nil_append]
    rw [utf8Decode.eq_def]
    dsimp only
    rw [toNat_ofNat (by omega), if_neg (by omega), if_neg (by omega), if_pos (by omega), continuation_ofNat (by omega)]
    simp only [Option.bind_eq_bind, Option.bind_some]
    have e : (192 + c / 64 - 192) * 64 + c % 64 = c := by omega
    rw [e, if_neg (by omega)]
  rw [if_neg h2, if_neg h.2]
  by_cases h3 : c < 0x10000
  · rw [if_pos h3]
    refine ⟨_, rfl, fun rest => ?_⟩
    simp only [List.cons_append, List.nil_append]
    rw [utf8Decode.eq_def]
    dsimp only
    rw [toNat_ofNat (by omega), if_neg (by omega), if_neg (by omega), if_neg (by omega), if_pos (by omega),
      continuation_ofNat (by omega), continuation_ofNat (by omega)]
    simp only [Option.bind_eq_bind, Option.bind_some]
    have e : ((224 + c / 4096 - 224) * 64 + c / 64 % 64) * 64 + c % 64 = c := by omega
    rw [e, if_neg (by omega)]
  rw [if_neg h3, if_pos h.1]
  refine ⟨_, rfl, fun rest => ?_⟩
  simp only [List.cons_append, List.nil_append]
  rw [utf8Decode.eq_def]
  dsimp only
  rw [toNat_ofNat (by omega), if_neg (by omega), if_neg (by omega), if_neg (by omega), if_neg (by omega), if_pos (by omega),
    continuation_ofNat (by omega), continuation_ofNat (by omega), continuation_ofNat (by omega)]
  simp only [Option.bind_eq_bind, Option.bind_some]
  have e : (((240 + c / 262144 - 240) * 64 + c / 4096 % 64) * 64 + c / 64 % 64) * 64 + c % 64 = c := by omega
  rw [e, if_neg (by omega)]

theorem utf8Char_none {c : Nat} (h : ¬ scalar c) : utf8Char c = none := by
  unfold scalar at h
  unfold utf8Char
  rw [if_neg (by omega), if_neg (by omega)]
  by_cases h3 : 0xD800 ≤ c ∧ c < 0xE000
  · rw [if_pos h3]
  · rw [if_neg h3, if_neg (by omega), if_neg (by omega)]

theorem utf8_scalars : ∀ s : Str, (∀ c ∈ s, scalar c) → ∃ b, utf8 s = some b ∧ utf8Decode b = some s
  | [], _ => ⟨[], rfl, rfl⟩
  | c :: s, h => by
    obtain ⟨bs, h1, h2⟩ := utf8_scalars s fun c hc => h c (by simp [hc])
    obtain ⟨b, h3, h4⟩ := utf8Char_scalar (h c (by simp))
    exact ⟨b ++ bs, by rw [utf8, h3]; dsimp only; rw [h1], by rw [h4, h2]; rfl⟩

theorem utf8_none : ∀ s : Str, utf8 s = none ↔ ∃ c ∈ s, ¬ scalar c
  | [] => by simp [utf8]
  | c :: s => by
    have ih := utf8_none s
    by_cases hc : scalar c
    · obtain ⟨b, h3, -⟩ := utf8Char_scalar hc
      rw [utf8, h3]
      cases hs : utf8 s with
      | none =>
        obtain ⟨x, hx, hn⟩ := ih.mp hs
        exact ⟨fun _ => ⟨x, by simp [hx], hn⟩, fun _ => rfl⟩
      | some bs =>
        refine ⟨fun h => by simp at h, fun ⟨x, hx, hn⟩ => ?_⟩
        rcases List.mem_cons.mp hx with rfl | hx
        · exact absurd hc hn
        · rw [ih.mpr ⟨x, hx, hn⟩] at hs; cases hs
    · rw [utf8, utf8Char_none hc]
      exact ⟨fun _ => ⟨c, by simp, hc⟩, fun _ => rfl⟩

/-- Decoded UTF-16 has no surrogates. -/
theorem utf16Decode_scalars (b : Bytes) : ∀ c ∈ utf16Decode b, scalar c := by
  fun_induction utf16Decode b with
  | case1 => simp
  | case2 => simp [scalar]
  | case3 => simp [scalar]
  | case4 => simp [scalar]
  | case5 a b h c d rest' h' ih =>
    intro x hx
    rcases List.mem_cons.mp hx with hx | hx
    · unfold scalar; omega
    · exact ih x hx
  | case6 a b h c d rest' h' ih =>
    intro x hx
    rcases List.mem_cons.mp hx with hx | hx
    · unfold scalar; omega
    · exact ih x hx
  | case7 a b rest h h' ih =>
    intro x hx
    rcases List.mem_cons.mp hx with hx | hx
    · unfold scalar; omega
    · exact ih x hx
  | case8 a b rest h h' ih =>
    intro x hx
    rcases List.mem_cons.mp hx with hx | hx
    · have := a.toNat_lt; have := b.toNat_lt; unfold scalar; omega
    · exact ih x hx

end Verif.Proof.Csv
