/-
C69: the files of an exFAT directory.  C70: forbidden characters in names.  C79: timestamps of exFAT.
-/
import Verif.Props.C60
import Verif.Props.C61
import Verif.Props.C71_C74
import Verif.Spec.ExFATDirectory
namespace Verif.Props.ExFAT
open Verif.ExFAT Verif.Spec.ExFAT
open Verif.FAT (DateTime slots)

/-! ### Timestamps -/

theorem timestamp_eq (value ms : Nat) (hv : value < 2 ^ 32) :
    decodeFATTimestamp value ms =
      Verif.FAT.dateTime (Verif.FAT.decodeFATDate (value / 65536)) (Verif.FAT.decodeFATTime (value % 65536)) (if ms ≤ 199 then ms else 0) := by
  have e1 : value &&& 0xFFFF = value % 65536 := and_mask value 16
  have e2 : (value >>> 16) &&& 0xFFFFF = value / 65536 := by
    rw [Nat.shiftRight_eq_div_pow]
    have : value / 2 ^ 16 &&& 0xFFFFF = value / 2 ^ 16 % 2 ^ 20 := and_mask _ 20
    rw [this]
    omega
  have e3 : (if ms > 199 then 0 else ms) = if ms ≤ 199 then ms else 0 := by
    by_cases h : ms ≤ 199
    · rw [if_pos h, if_neg (by omega)]
    · rw [if_neg h, if_pos (by omega)]
  unfold decodeFATTimestamp
  simp only [e1, e2, e3]
  unfold Verif.FAT.decodeFATDate Verif.FAT.decodeFATTime
  simp only []
  generalize value / 65536 = d
  generalize value % 65536 = t
  generalize (if ms ≤ 199 then ms else 0) = inc
  by_cases h1 : t &&& 0x1F > 29
  · rw [if_pos h1, if_pos h1]
    cases (if d &&& 0x1F = 0 then (none : Option Verif.FAT.Date) else _) <;> rfl
  rw [if_neg h1, if_neg h1]
  by_cases h2 : (t >>> 5) &&& 0x3F > 59
  · rw [if_pos h2, if_pos h2]
    cases (if d &&& 0x1F = 0 then (none : Option Verif.FAT.Date) else _) <;> rfl
  rw [if_neg h2, if_neg h2]
  by_cases h3 : (t >>> 11) &&& 0x1F > 23
  · rw [if_pos h3, if_pos h3]
    cases (if d &&& 0x1F = 0 then (none : Option Verif.FAT.Date) else _) <;> rfl
  rw [if_neg h3, if_neg h3]
  by_cases h4 : d &&& 0x1F = 0
  · rw [if_pos h4, if_pos h4]; rfl
  rw [if_neg h4, if_neg h4]
  by_cases h5 : (d >>> 5) &&& 0x0F = 0 ∨ (d >>> 5) &&& 0x0F > 12
  · rw [if_pos h5, if_pos h5]; rfl
  rw [if_neg h5, if_neg h5]
  by_cases h6 : (d >>> 9) &&& 0x7F > 127
  · rw [if_pos h6, if_pos h6]; rfl
  rw [if_neg h6, if_neg h6]
  by_cases h7 : d &&& 0x1F > Verif.FAT.daysInMonth (((d >>> 9) &&& 0x7F) + 1980) ((d >>> 5) &&& 0x0F)
  · rw [if_pos h7, if_pos h7]; rfl
  rw [if_neg h7, if_neg h7]
  rfl

/-- C79: a timestamp is the date and the time that it packs, plus the hundredths of a second; there is none exactly
when it packs no valid date and time. -/
theorem C79_timestamp (value hundredths : Nat) (hv : value < 2 ^ 32) : Timestamp value hundredths (decodeFATTimestamp value hundredths) := by
  intro d c μs
  rw [timestamp_eq value hundredths hv]
  exact Verif.Props.dateTime_some _ _ _ (by omega) (by omega) (by split <;> omega) d c μs

/-- C79: so a packed valid date and time are found again. -/
theorem C79_found (year month day hour minute second hundredths : Nat) (hd : Verif.Spec.FAT.ValidDate year month day)
    (ht : Verif.Spec.FAT.ValidTime hour minute second) (hh : hundredths ≤ 199) :
    decodeFATTimestamp (65536 * Verif.Spec.FAT.packDate year month day + Verif.Spec.FAT.packTime hour minute second) hundredths =
      some ⟨⟨year, month, day⟩, ⟨hour, minute, second + hundredths / 100⟩, hundredths % 100 * 10000⟩ := by
  have h2 : Verif.Spec.FAT.packTime hour minute second < 65536 := by
    unfold Verif.Spec.FAT.packTime
    obtain ⟨a, b, c, d⟩ := ht
    omega
  have h1 : Verif.Spec.FAT.packDate year month day < 65536 := by
    unfold Verif.Spec.FAT.packDate
    obtain ⟨a, b, c, d, e, f⟩ := hd
    have : Verif.Spec.FAT.monthLength year month ≤ 31 := by
      unfold Verif.Spec.FAT.monthLength
      split <;> try omega
      split <;> omega
    omega
  refine (C79_timestamp _ hundredths (by omega) _ _ _).mpr ⟨hd, by dsimp only; omega, second, ht, by dsimp only; omega, ?_, by omega⟩
  rw [if_pos hh]
  dsimp only
  omega

example : decodeFATTimestamp 0x5A6F7D31 150 = some ⟨⟨2025, 3, 15⟩, ⟨15, 41, 35⟩, 500000⟩ ∧ decodeFATTimestamp 0x5A6F7D3F 0 = none := by decide +kernel

theorem zone_eq (v : Nat) (h : v < 256) : decodeFATTimezone v = zone v := by
  rw [C74_time_zone v h]
  unfold zone
  split
  · rfl
  · split <;> (split <;> first | rfl | omega)

/-! ### Types of entries -/

theorem withoutInUse_eq (slot : Bytes) : withoutInUse (u8 slot 0) = entryKind slot := by
  have : ∀ t, t < 256 → withoutInUse t = t % 128 := by decide +kernel
  exact this _ (u8_lt slot 0)

theorem isInUse_iff (slot : Bytes) : isInUse (u8 slot 0) = true ↔ entryInUse slot := by
  have : ∀ t, t < 256 → (isInUse t = true ↔ 128 ≤ t) := by decide +kernel
  exact this _ (u8_lt slot 0)

theorem typeCategory_iff (slot : Bytes) : typeCategory (u8 slot 0) = 1 ↔ Secondary slot := by
  have : ∀ t, t < 256 → (typeCategory t = 1 ↔ 64 ≤ t % 128) := by decide +kernel
  exact this _ (u8_lt slot 0)

theorem typeCategory_zero (slot : Bytes) : typeCategory (u8 slot 0) = 0 ↔ ¬ Secondary slot := by
  have : ∀ t, t < 256 → (typeCategory t = 0 ↔ ¬ 64 ≤ t % 128) := by decide +kernel
  exact this _ (u8_lt slot 0)

theorem secondaryOk_iff (deleted : Bool) (slot : Bytes) :
    secondaryOk deleted slot = true ↔ Secondary slot ∧ (deleted = false → entryInUse slot) := by
  unfold secondaryOk
  have hs := typeCategory_iff slot
  have hi := isInUse_iff slot
  split
  · rename_i h
    have : ¬ Secondary slot := by
      unfold Secondary entryKind
      simp only [List.mem_cons, List.not_mem_nil, or_false] at h
      omega
    simp [this]
  · split
    · rename_i h
      have : ¬ Secondary slot := fun h' => h (hs.mpr h')
      simp [this]
    · rename_i h
      have h : Secondary slot := hs.mp (by simpa using h)
      split
      · rename_i h'
        have : ¬ entryInUse slot := fun h'' => by rw [hi.mpr h''] at h'; exact absurd h'.2 (by simp)
        simp [h'.1, this]
      · rename_i h'
        simp only [true_iff]
        refine ⟨h, fun hd => hi.mp ?_⟩
        cases hu : isInUse (u8 slot 0)
        · exact absurd ⟨hd, hu⟩ h'
        · rfl

theorem decodeFlags_fst (slot : Bytes) : (decodeFlags (u8 slot 1)).1 = true ↔ u8 slot 1 % 2 = 1 := by
  have : ∀ t, t < 256 → ((decodeFlags t).1 = true ↔ t % 2 = 1) := by decide +kernel
  exact this _ (u8_lt slot 1)

theorem decodeFlags_snd (slot : Bytes) : (decodeFlags (u8 slot 1)).2 = true ↔ u8 slot 1 / 2 % 2 = 1 := by
  have : ∀ t, t < 256 → ((decodeFlags t).2 = true ↔ t / 2 % 2 = 1) := by decide +kernel
  exact this _ (u8_lt slot 1)

theorem maxFileNameCount_eq (n : Nat) (h : n ≠ 0) : maxFileNameCount n = (n + 14) / 15 := by
  unfold maxFileNameCount
  split
  · omega
  · split <;> omega

/-! ### Names -/

theorem forbidden_iff (c : Nat) : c ∈ forbiddenCharacters ↔ ForbiddenInName c := by
  unfold ForbiddenInName
  rw [show "\"*/:<>?\\|".toList.map Char.toNat = [34, 42, 47, 58, 60, 62, 63, 92, 124] by decide]
  unfold forbiddenCharacters
  simp only [List.mem_cons, List.not_mem_nil, or_false]
  omega

theorem any_forbidden (s : Str) : s.any (decide <| · ∈ forbiddenCharacters) = true ↔ ∃ c ∈ s, ForbiddenInName c := by
  rw [List.any_eq_true]
  simp only [decide_eq_true_eq, forbidden_iff]

theorem beforeNull_iff (b units : Bytes) (hp : b.length % 2 = 0) : BeforeNull b units ↔ units = cutNull b := by
  unfold cutNull
  constructor
  · rintro ⟨rest, h1, h2, h3, h4⟩
    rw [h1]
    exact (Verif.Props.cutNull_of units rest h2 h3 h4).symm
  · rintro rfl
    exact Verif.Props.cutNull_spec b hp

theorem buildName_some (parts : List Bytes) (n : Nat) (hp : parts.flatten.length % 2 = 0) (hne : parts ≠ []) (s : Str) :
    buildName parts (some n) = some s ↔
      ∃ units, BeforeNull parts.flatten units ∧ utf16Decode units ≠ [] ∧
        (n < (utf16Decode units).length → s = (utf16Decode units).take n) ∧
        (¬ n < (utf16Decode units).length → s = utf16Decode units ∧ GoodText s) := by
  have hl : parts.length ≠ 0 := by simpa using hne
  have : (∃ units, BeforeNull parts.flatten units ∧ utf16Decode units ≠ [] ∧
        (n < (utf16Decode units).length → s = (utf16Decode units).take n) ∧
        (¬ n < (utf16Decode units).length → s = utf16Decode units ∧ GoodText s)) ↔
      (utf16Decode (cutNull parts.flatten) ≠ [] ∧
        (n < (utf16Decode (cutNull parts.flatten)).length → s = (utf16Decode (cutNull parts.flatten)).take n) ∧
        (¬ n < (utf16Decode (cutNull parts.flatten)).length → s = utf16Decode (cutNull parts.flatten) ∧ GoodText s)) := by
    constructor
    · rintro ⟨units, h1, h2⟩
      rw [(beforeNull_iff _ _ hp).mp h1] at h2
      exact h2
    · intro h
      exact ⟨_, (beforeNull_iff _ _ hp).mpr rfl, h⟩
  rw [this]
  unfold buildName
  rw [if_neg hl]
  simp only []
  generalize utf16Decode (cutNull parts.flatten) = name
  by_cases h1 : name = []
  · subst h1; simp
  rw [if_neg (by simpa using h1)]
  by_cases h2 : name.length > n
  · rw [if_pos h2]
    simp only [Option.some.injEq]
    exact ⟨fun h => ⟨h1, fun _ => h.symm, fun h' => absurd h2 h'⟩, fun h => (h.2.1 h2).symm⟩
  · rw [if_neg h2]
    have hgood : GoodText name ↔ ¬ name.any (decide <| · ∈ forbiddenCharacters) = true ∧ name ∉ [[0x2E], [0x2E, 0x2E]] := by
      rw [any_forbidden]
      unfold GoodText
      simp
    by_cases h3 : GoodText name
    · rw [if_neg (hgood.mp h3).1, if_neg (hgood.mp h3).2]
      simp only [Option.some.injEq]
      constructor
      · rintro rfl; exact ⟨h1, fun h => absurd h h2, fun _ => ⟨rfl, h3⟩⟩
      · rintro ⟨_, _, h⟩; exact (h h2).1.symm
    · have : (if name.any (decide <| · ∈ forbiddenCharacters) = true then none else if name ∈ [[0x2E], [0x2E, 0x2E]] then none else some name) = (none : Option Str) := by
        split
        · rfl
        · split
          · rfl
          · rename_i a b; exact absurd (hgood.mpr ⟨a, b⟩) h3
      rw [this]
      constructor
      · intro h; cases h
      · rintro ⟨_, _, h⟩
        obtain ⟨rfl, h'⟩ := h h2
        exact absurd h' h3

/-- The name of an entry without a set is good. -/
theorem buildName_orphan {parts : List Bytes} {s : Str} (h : buildName parts none = some s) : GoodText s := by
  unfold buildName at h
  split at h
  · cases h
  · simp only [] at h
    split at h
    · cases h
    · split at h
      · cases h
      · split at h
        · cases h
        · rename_i h1 h2
          have := Option.some.inj h
          subst this
          rw [any_forbidden] at h1
          exact ⟨fun c hc hf => h1 ⟨c, hc, hf⟩, by simpa using h2⟩

/-- Decoding gives at most one character for two bytes. -/
theorem utf16Decode_length (b : Bytes) (h : b.length % 2 = 0) : 2 * (utf16Decode b).length ≤ b.length := by
  fun_induction utf16Decode b <;> simp_all <;> omega

/-! ### Entry sets -/

/-- The entries after the first part of a name. -/
theorem nameParts_vendor (deleted : Bool) (max : Nat) (l : List Bytes) (i count : Nat) (hi : 2 ≤ i) (parts : List Bytes) :
    nameParts deleted max l i count true = some parts ↔
      parts = [] ∧ ∀ s ∈ l, secondaryOk deleted s = true ∧ entryKind s ∈ [0x60, 0x61] := by
  induction l generalizing i count with
  | nil =>
    rw [nameParts]
    exact ⟨fun h => ⟨(Option.some.inj h).symm, by simp⟩, fun h => by rw [h.1]⟩
  | cons slot l ih =>
    rw [nameParts]
    simp only [withoutInUse_eq]
    by_cases h1 : secondaryOk deleted slot = true
    · rw [if_neg (by simpa using h1), if_neg (by omega)]
      by_cases h2 : entryKind slot ∈ [0x60, 0x61]
      · have h3 : entryKind slot ≠ 0x40 ∧ entryKind slot ≠ 0x41 := by
          simp only [List.mem_cons, List.not_mem_nil, or_false] at h2
          omega
        rw [if_neg (by omega), if_neg h3.2, if_pos h2, ih _ _ (by omega)]
        simp only [List.forall_mem_cons, h1, h2, true_and]
      · have : ¬ ∀ s ∈ slot :: l, secondaryOk deleted s = true ∧ entryKind s ∈ [0x60, 0x61] := fun h => h2 (h slot (by simp)).2
        simp only [this, and_false, iff_false]
        split
        · simp
        · split
          · split <;> simp
          · simp
    · rw [if_pos (by simpa using h1)]
      have : ¬ ∀ s ∈ slot :: l, secondaryOk deleted s = true ∧ entryKind s ∈ [0x60, 0x61] := fun h => h1 (h slot (by simp)).1
      simp only [this, and_false]
      simp

theorem nameParts_body (deleted : Bool) (max : Nat) (l : List Bytes) (i count : Nat) (hi : 2 ≤ i) (hc : count ≤ max ∧ count ≤ 17) (parts : List Bytes) :
    nameParts deleted max l i count false = some parts ↔
      (∀ s ∈ l, secondaryOk deleted s = true) ∧
      ∃ body vendor, l = body ++ vendor ∧ (∀ s ∈ body, entryKind s ∉ [0x40, 0x60, 0x61]) ∧ (∀ s ∈ vendor, entryKind s ∈ [0x60, 0x61]) ∧
        parts = (body.filter (entryKind · = 0x41)).map (slice · 2 32) ∧
        count + (body.filter (entryKind · = 0x41)).length ≤ 17 ∧ count + (body.filter (entryKind · = 0x41)).length ≤ max := by
  induction l generalizing i count parts with
  | nil =>
    rw [nameParts]
    constructor
    · intro h
      have := Option.some.inj h
      subst this
      exact ⟨by simp, [], [], by simp, by simp, by simp, by simp, by simpa using hc.2, by simpa using hc.1⟩
    · rintro ⟨_, body, vendor, h1, _, _, h4, _⟩
      have h1 := List.append_eq_nil_iff.mp h1.symm
      rw [h4, h1.1]
      rfl
  | cons slot l ih =>
    rw [nameParts]
    simp only [withoutInUse_eq]
    by_cases h1 : secondaryOk deleted slot = true
    rotate_left
    · rw [if_pos (by simpa using h1)]
      have : ¬ ∀ s ∈ slot :: l, secondaryOk deleted s = true := fun h => h1 (h slot (by simp))
      simp only [this, false_and]
      simp
    rw [if_neg (by simpa using h1), if_neg (by omega)]
    by_cases h2 : entryKind slot = 0x40
    · rw [if_pos ⟨hi, h2⟩]
      constructor
      · intro h; cases h
      · rintro ⟨_, body, vendor, h3, h4, h5, _⟩
        have : slot ∈ body ++ vendor := by rw [← h3]; simp
        rcases List.mem_append.mp this with h | h
        · exact absurd (h4 _ h) (by simp [h2])
        · exact absurd (h5 _ h) (by simp [h2])
    rw [if_neg (by omega)]
    by_cases h3 : entryKind slot = 0x41
    · rw [if_pos h3]
      have hnv : ∀ {body vendor : List Bytes}, slot :: l = body ++ vendor → (∀ s ∈ vendor, entryKind s ∈ [0x60, 0x61]) → ∃ body', body = slot :: body' ∧ l = body' ++ vendor := by
        intro body vendor h hv
        match body, h with
        | [], h => exact absurd (hv slot (by rw [List.nil_append] at h; rw [← h]; simp)) (by simp [h3])
        | b :: body', h =>
          rw [List.cons_append] at h
          cases h
          exact ⟨body', rfl, rfl⟩
      by_cases h4 : count + 1 > max ∨ count + 1 > 17
      · rw [if_pos h4]
        constructor
        · intro h; cases h
        · rintro ⟨_, body, vendor, h5, _, h7, _, h9, h10⟩
          obtain ⟨body', rfl, _⟩ := hnv h5 h7
          rw [List.filter_cons, if_pos (by simpa using h3), List.length_cons] at h9 h10
          omega
      · rw [if_neg h4, if_neg (by simp)]
        constructor
        · intro h
          rw [Option.map_eq_some_iff] at h
          obtain ⟨p, h5, rfl⟩ := h
          obtain ⟨h6, body, vendor, rfl, h8, h9, rfl, h11, h12⟩ := (ih (i + 1) (count + 1) (by omega) (by omega) p).mp h5
          refine ⟨?_, slot :: body, vendor, rfl, ?_, h9, ?_, ?_, ?_⟩
          · intro s hs; rcases List.mem_cons.mp hs with rfl | hs
            · exact h1
            · exact h6 s hs
          · intro s hs; rcases List.mem_cons.mp hs with rfl | hs
            · simp [h3]
            · exact h8 s hs
          · rw [List.filter_cons, if_pos (by simpa using h3)]; rfl
          · rw [List.filter_cons, if_pos (by simpa using h3), List.length_cons]; omega
          · rw [List.filter_cons, if_pos (by simpa using h3), List.length_cons]; omega
        · rintro ⟨h6, body, vendor, h7, h8, h9, h10, h11, h12⟩
          obtain ⟨body', rfl, h13⟩ := hnv h7 h9
          rw [List.filter_cons, if_pos (by simpa using h3)] at h10 h11 h12
          rw [List.length_cons] at h11 h12
          rw [(ih (i + 1) (count + 1) (by omega) (by omega) _).mpr ⟨fun s hs => h6 s (by simp [hs]), body', vendor, h13, fun s hs => h8 s (by simp [hs]), h9, rfl, by omega, by omega⟩, h10]
          rfl
    rw [if_neg h3]
    by_cases h4 : entryKind slot ∈ [0x60, 0x61]
    · rw [if_pos h4, nameParts_vendor _ _ _ _ _ (by omega)]
      constructor
      · rintro ⟨rfl, h5⟩
        refine ⟨?_, [], slot :: l, rfl, by simp, ?_, rfl, by simpa using hc.2, by simpa using hc.1⟩
        · intro s hs; rcases List.mem_cons.mp hs with rfl | hs
          · exact h1
          · exact (h5 s hs).1
        · intro s hs; rcases List.mem_cons.mp hs with rfl | hs
          · exact h4
          · exact (h5 s hs).2
      · rintro ⟨h5, body, vendor, h6, h7, h8, h9, _⟩
        match body, h6 with
        | [], h6 =>
          rw [List.nil_append] at h6
          subst h6
          exact ⟨h9, fun s hs => ⟨h5 s (by simp [hs]), h8 s (by simp [hs])⟩⟩
        | b :: body', h6 =>
          rw [List.cons_append] at h6
          cases h6
          exact absurd (h7 slot (by simp)) (by
            simp only [List.mem_cons, List.not_mem_nil, or_false] at h4
            simp only [List.mem_cons, List.not_mem_nil, or_false, Classical.not_not]
            omega)
    · rw [if_neg h4, if_neg (by simp), ih (i + 1) count (by omega) hc]
      have hk : entryKind slot ∉ [0x40, 0x60, 0x61] := by
        simp only [List.mem_cons, List.not_mem_nil, or_false] at h4 ⊢
        omega
      constructor
      · rintro ⟨h6, body, vendor, rfl, h8, h9, h10, h11, h12⟩
        refine ⟨?_, slot :: body, vendor, rfl, ?_, h9, ?_, ?_, ?_⟩
        · intro s hs; rcases List.mem_cons.mp hs with rfl | hs
          · exact h1
          · exact h6 s hs
        · intro s hs; rcases List.mem_cons.mp hs with rfl | hs
          · exact hk
          · exact h8 s hs
        all_goals rw [List.filter_cons, if_neg (by simpa using h3)]; assumption
      · rintro ⟨h6, body, vendor, h7, h8, h9, h10, h11, h12⟩
        refine ⟨fun s hs => h6 s (by simp [hs]), ?_⟩
        match body, h7 with
        | [], h7 => exact absurd (h9 slot (by rw [List.nil_append] at h7; rw [← h7]; simp)) h4
        | b :: body', h7 =>
          rw [List.cons_append] at h7
          cases h7
          rw [List.filter_cons, if_neg (by simpa using h3)] at h10 h11 h12
          exact ⟨body', vendor, rfl, fun s hs => h8 s (by simp [hs]), h9, h10, h11, h12⟩

/-- The secondary entries of a set. -/
theorem secondaries_iff (deleted : Bool) (l : List Bytes) (hl : 2 ≤ l.length) (st : Stream) (parts : List Bytes) :
    secondaries deleted l = some (st, parts) ↔
      ∃ stream names, (∀ s ∈ l, secondaryOk deleted s = true) ∧
        (∃ name body vendor, l = stream :: name :: (body ++ vendor) ∧ entryKind stream = 0x40 ∧ entryKind name = 0x41 ∧
          (∀ s ∈ body, entryKind s ∉ [0x40, 0x60, 0x61]) ∧ (∀ s ∈ vendor, entryKind s ∈ [0x60, 0x61]) ∧
          names = name :: body.filter (entryKind · = 0x41)) ∧
        u8 stream 1 % 2 = 1 ∧ u8 stream 3 ≠ 0 ∧ (names.length ≤ 17 ∧ names.length ≤ (u8 stream 3 + 14) / 15) ∧
        parts = names.map (slice · 2 32) ∧
        st = ⟨(decodeFlags (u8 stream 1)).2, u8 stream 3, u64 stream 8, u32 stream 20, u64 stream 24⟩ := by
  match l, hl with
  | stream :: name :: l, _ =>
  rw [secondaries]
  simp only [withoutInUse_eq]
  by_cases h1 : secondaryOk deleted stream = true
  rotate_left
  · rw [if_pos (by simpa using h1)]
    constructor
    · intro h; cases h
    · rintro ⟨s, n, h, _⟩; exact absurd (h stream (by simp)) h1
  rw [if_neg (by simpa using h1)]
  by_cases h2 : entryKind stream = 0x40
  rotate_left
  · rw [if_pos h2]
    constructor
    · intro h; cases h
    · rintro ⟨s, n, _, ⟨nm, b, v, h, h', _⟩, _⟩
      cases h
      exact absurd h' h2
  rw [if_neg (by simpa using h2)]
  have hst : streamOf stream = if u8 stream 1 % 2 = 1 ∧ u8 stream 3 ≠ 0 then
      some ⟨(decodeFlags (u8 stream 1)).2, u8 stream 3, u64 stream 8, u32 stream 20, u64 stream 24⟩ else none := by
    unfold streamOf
    have := decodeFlags_fst stream
    cases hd : decodeFlags (u8 stream 1) with
    | mk a b =>
      rw [hd] at this
      dsimp only at this ⊢
      by_cases h3 : u8 stream 1 % 2 = 1
      · rw [this.mpr h3, if_neg (by simp)]
        by_cases h4 : u8 stream 3 = 0
        · rw [if_pos h4, if_neg (by omega)]
        · rw [if_neg h4, if_pos ⟨h3, h4⟩]
      · rw [if_pos (fun h => h3 (this.mp h)), if_neg (fun h => h3 h.1)]
  rw [hst]
  by_cases h3 : u8 stream 1 % 2 = 1 ∧ u8 stream 3 ≠ 0
  rotate_left
  · rw [if_neg h3]
    constructor
    · intro h; cases h
    · rintro ⟨s, n, _, ⟨nm, b, v, h, _⟩, h5, h6, _⟩
      cases h
      exact absurd ⟨h5, h6⟩ h3
  rw [if_pos h3]
  simp only []
  rw [maxFileNameCount_eq _ h3.2, nameParts]
  simp only [withoutInUse_eq]
  by_cases h4 : secondaryOk deleted name = true
  rotate_left
  · rw [if_pos (by simpa using h4)]
    constructor
    · intro h; cases h
    · rintro ⟨s, n, h, _⟩; exact absurd (h name (by simp)) h4
  rw [if_neg (by simpa using h4)]
  by_cases h5 : entryKind name = 0x41
  rotate_left
  · rw [if_pos ⟨trivial, h5⟩]
    constructor
    · intro h; cases h
    · rintro ⟨s, n, _, ⟨nm, b, v, h, _, h', _⟩, _⟩
      cases h
      exact absurd h' h5
  rw [if_neg (by simp [h5]), if_neg (by omega), if_pos h5, if_neg (by omega), if_neg (by simp)]
  have hm : 0 + 1 ≤ (u8 stream 3 + 14) / 15 ∧ 0 + 1 ≤ 17 := by omega
  have key := nameParts_body deleted ((u8 stream 3 + 14) / 15) l 2 1 (by omega) hm
  constructor
  · intro h
    cases hn : nameParts deleted ((u8 stream 3 + 14) / 15) l (1 + 1) (0 + 1) false with
    | none => rw [hn] at h; cases h
    | some p =>
      rw [hn] at h
      have h := Option.some.inj h
      simp only [Prod.mk.injEq] at h
      obtain ⟨rfl, rfl⟩ := h
      obtain ⟨k1, body, vendor, k2, k3, k4, k5, k6, k7⟩ := (key p).mp hn
      refine ⟨stream, name :: body.filter (entryKind · = 0x41), ?_, ⟨name, body, vendor, by rw [k2], h2, h5, k3, k4, rfl⟩, h3.1, h3.2, ?_, ?_, rfl⟩
      · intro s hs
        rcases List.mem_cons.mp hs with rfl | hs
        · exact h1
        · rcases List.mem_cons.mp hs with rfl | hs
          · exact h4
          · exact k1 s hs
      · rw [List.length_cons]; omega
      · rw [List.map_cons, k5]
  · rintro ⟨s, n, k1, ⟨nm, body, vendor, k2, _, _, k5, k6, rfl⟩, _, _, k9, rfl, rfl⟩
    cases k2
    rw [List.length_cons] at k9
    have := (key ((body.filter (entryKind · = 0x41)).map (slice · 2 32))).mpr
      ⟨fun s hs => k1 s (by simp [hs]), body, vendor, rfl, k5, k6, rfl, by omega, by omega⟩
    rw [show nameParts deleted ((u8 stream 3 + 14) / 15) (body ++ vendor) (1 + 1) (0 + 1) false = _ from this]
    rfl

theorem bit_iff (x n : Nat) : decide (x &&& 2 ^ n > 0) = true ↔ x / 2 ^ n % 2 = 1 := by
  rw [decide_eq_true_eq, and_two_pow_pos, Nat.testBit_eq_decide_div_mod_eq, decide_eq_true_eq]

theorem parts_even {names : List Bytes} (h : ∀ s ∈ names, s.length = 32) : ((names.map (slice · 2 32)).flatten).length % 2 = 0 := by
  induction names with
  | nil => rfl
  | cons n names ih =>
    have h1 := ih fun s hs => h s (by simp [hs])
    have h2 : (slice n 2 32).length = 30 := by rw [slice_length, h n (by simp)]; rfl
    rw [List.map_cons, List.flatten_cons, List.length_append, h2]
    omega

/-- A file of the code has the fields of its set. -/
theorem describes_iff (primary stream : Bytes) (names : List Bytes) (hne : names ≠ []) (hn : ∀ s ∈ names, s.length = 32) (deleted : Bool)
    (hd : deleted = true ↔ ¬ entryInUse primary) (name : Str) :
    buildName (names.map (slice · 2 32)) (some (u8 stream 3)) = some name ↔
    Describes primary stream names
      (fileEntry primary deleted ⟨(decodeFlags (u8 stream 1)).2, u8 stream 3, u64 stream 8, u32 stream 20, u64 stream 24⟩ name) := by
  rw [buildName_some _ _ (parts_even hn) (by simpa using hne)]
  constructor
  · intro h
    exact {
      deleted := hd
      directory := bit_iff _ 4
      name := h
      created := C79_timestamp _ _ (u32_lt _ _)
      modified := C79_timestamp _ _ (u32_lt _ _)
      accessed := C79_timestamp _ _ (u32_lt _ _)
      createdZone := zone_eq _ (u8_lt _ _)
      modifiedZone := zone_eq _ (u8_lt _ _)
      accessedZone := zone_eq _ (u8_lt _ _)
      size := rfl
      validSize := rfl
      attributes := rfl
      firstCluster := rfl
      encrypted := by
        have h1 := bit_iff (u16 primary 6) 15
        have h2 := u16_lt primary 6
        refine Iff.trans h1 ?_
        rw [show (2 : Nat) ^ 15 = 32768 from rfl]
        omega
      contiguous := decodeFlags_snd stream }
  · intro h
    exact h.name

/-- The places of a set determine its stream extension and the parts of its name. -/
theorem places_unique {l : List Bytes} {stream stream' : Bytes} {names names' : List Bytes}
    (h : ∃ name body vendor, l = stream :: name :: (body ++ vendor) ∧ entryKind stream = 0x40 ∧ entryKind name = 0x41 ∧
      (∀ s ∈ body, entryKind s ∉ [0x40, 0x60, 0x61]) ∧ (∀ s ∈ vendor, entryKind s ∈ [0x60, 0x61]) ∧ names = name :: body.filter (entryKind · = 0x41))
    (h' : ∃ name body vendor, l = stream' :: name :: (body ++ vendor) ∧ entryKind stream' = 0x40 ∧ entryKind name = 0x41 ∧
      (∀ s ∈ body, entryKind s ∉ [0x40, 0x60, 0x61]) ∧ (∀ s ∈ vendor, entryKind s ∈ [0x60, 0x61]) ∧ names' = name :: body.filter (entryKind · = 0x41)) :
    stream = stream' ∧ names = names' := by
  have hv : ∀ {vendor : List Bytes}, (∀ s ∈ vendor, entryKind s ∈ [0x60, 0x61]) → vendor.filter (entryKind · = 0x41) = [] := by
    intro vendor hv
    rw [List.filter_eq_nil_iff]
    intro s hs h
    have := hv s hs
    simp only [List.mem_cons, List.not_mem_nil, or_false] at this
    have h : entryKind s = 0x41 := by simpa using h
    omega
  obtain ⟨name, body, vendor, h1, _, h3, _, h5, rfl⟩ := h
  obtain ⟨name', body', vendor', h1', _, h3', _, h5', rfl⟩ := h'
  rw [h1] at h1'
  simp only [List.cons.injEq] at h1'
  obtain ⟨rfl, rfl, h6⟩ := h1'
  refine ⟨rfl, ?_⟩
  have := congrArg (List.filter (entryKind · = 0x41)) h6
  rw [List.filter_append, List.filter_append, hv h5, hv h5', List.append_nil, List.append_nil] at this
  rw [this]

theorem set_length {slot : Bytes} {l : List Bytes} (hs : slot.length = 32) (hl : ∀ s ∈ l, s.length = 32) :
    (slot ++ l.flatten).length = 32 * (l.length + 1) := by
  rw [List.length_append, hs]
  induction l with
  | nil => rfl
  | cons x l ih =>
    have := ih fun s h => hl s (by simp [h])
    rw [List.flatten_cons, List.length_append, hl x (by simp), List.length_cons]
    omega

/-- An entry with the type of a file: the code finds its set exactly when there is one. -/
theorem fileSet_spec (slot : Bytes) (rest : List Bytes) (hs : slot.length = 32) (hl : ∀ s ∈ rest, s.length = 32) (hk : entryKind slot = 5) :
    (∃ e n, fileSet slot rest = .ok (some (e, n)) ∧ FileAt slot rest e (rest.drop n)) ∨
    (fileSet slot rest = .ok none ∧ ¬ ∃ e r, FileAt slot rest e r) := by
  have hno : ∀ {e r}, FileAt slot rest e r → ∃ stream names, EntrySet slot (rest.take (u8 slot 1)) stream names ∧ Describes slot stream names e ∧
      r = rest.drop (u8 slot 1) := by
    rintro e r ⟨secondary, stream, names, h1, h2, h3⟩
    refine ⟨stream, names, ?_, h3, ?_⟩
    · rw [h1, ← h2.count, List.take_left']
      · exact h2
      · rfl
    · rw [h1, ← h2.count, List.drop_left']
      rfl
  have hdel : (!isInUse (u8 slot 0)) = true ↔ ¬ entryInUse slot := by
    rw [← isInUse_iff]; cases isInUse (u8 slot 0) <;> simp
  unfold fileSet
  simp only []
  by_cases h1 : u8 slot 1 < 2 ∨ u8 slot 1 > 64
  · rw [if_pos h1]
    refine Or.inr ⟨rfl, ?_⟩
    rintro ⟨e, r, h⟩
    obtain ⟨_, _, h2, _⟩ := hno h
    have := h2.count
    have := h2.bounds
    omega
  rw [if_neg h1]
  by_cases h2 : (rest.take (u8 slot 1)).length = u8 slot 1
  rotate_left
  · rw [if_pos h2]
    refine Or.inr ⟨rfl, ?_⟩
    rintro ⟨e, r, h⟩
    obtain ⟨_, _, h3, _⟩ := hno h
    exact h2 h3.count
  rw [if_neg (by simpa using h2)]
  have hl' : ∀ s ∈ rest.take (u8 slot 1), s.length = 32 := fun s h => hl s (List.mem_of_mem_take h)
  have hlen := set_length hs hl'
  have hsum : (if (!isInUse (u8 slot 0)) = true then .ok true else (entrySetChecksum (slot ++ (rest.take (u8 slot 1)).flatten)).map (decide <| u16 slot 2 = ·)) =
      (Except.ok (decide (entryInUse slot → u16 slot 2 = setChecksum (slot ++ (rest.take (u8 slot 1)).flatten))) : Except Exc Bool) := by
    by_cases h3 : entryInUse slot
    · rw [if_neg (fun h => hdel.mp h h3), entrySetChecksum_eq _ (by omega) (by omega)]
      simp only [h3, true_implies]
      rfl
    · rw [if_pos (hdel.mpr h3)]
      simp only [h3, false_implies]
      rfl
  rw [hsum]
  by_cases h3 : entryInUse slot → u16 slot 2 = setChecksum (slot ++ (rest.take (u8 slot 1)).flatten)
  rotate_left
  · rw [decide_eq_false h3]
    refine Or.inr ⟨rfl, ?_⟩
    rintro ⟨e, r, h⟩
    obtain ⟨_, _, h4, _⟩ := hno h
    exact h3 h4.checksum
  rw [decide_eq_true h3]
  dsimp only
  have hsec : ∀ {s : Bytes}, secondaryOk (!isInUse (u8 slot 0)) s = true ↔ Secondary s ∧ (entryInUse slot → entryInUse s) := by
    intro s
    rw [secondaryOk_iff]
    have : (!isInUse (u8 slot 0)) = false ↔ entryInUse slot := by
      rw [← isInUse_iff]; cases isInUse (u8 slot 0) <;> simp
    rw [this]
  have hiff := secondaries_iff (!isInUse (u8 slot 0)) (rest.take (u8 slot 1)) (by omega)
  cases h4 : secondaries (!isInUse (u8 slot 0)) (rest.take (u8 slot 1)) with
  | none =>
    refine Or.inr ⟨rfl, ?_⟩
    rintro ⟨e, r, h⟩
    obtain ⟨stream, names, h5, _⟩ := hno h
    have := (hiff ⟨(decodeFlags (u8 stream 1)).2, u8 stream 3, u64 stream 8, u32 stream 20, u64 stream 24⟩ (names.map (slice · 2 32))).mpr
      ⟨stream, names, fun s hs => hsec.mpr (h5.secondaries s hs), h5.places, h5.allocation, h5.nameLength, h5.nameCount, rfl, rfl⟩
    rw [h4] at this
    cases this
  | some sp =>
    obtain ⟨st, parts⟩ := sp
    obtain ⟨stream, names, k1, k2, k3, k4, k5, rfl, rfl⟩ := (hiff st parts).mp h4
    have hset : EntrySet slot (rest.take (u8 slot 1)) stream names :=
      ⟨hk, h2, by omega, h3, fun s hs => hsec.mp (k1 s hs), k2, k3, k4, k5⟩
    have hmem : ∀ s ∈ names, s ∈ rest.take (u8 slot 1) := by
      obtain ⟨name, body, vendor, m1, _, _, _, _, rfl⟩ := k2
      intro s hs
      rw [m1]
      rcases List.mem_cons.mp hs with rfl | hs
      · simp
      · have := (List.mem_filter.mp hs).1
        simp [this]
    have hne : names ≠ [] := by
      obtain ⟨name, body, vendor, _, _, _, _, _, rfl⟩ := k2
      simp
    have hdesc := describes_iff slot stream names hne (fun s hs => hl' s (hmem s hs)) (!isInUse (u8 slot 0)) hdel
    dsimp only
    cases h5 : buildName (names.map (slice · 2 32)) (some (u8 stream 3)) with
    | none =>
      refine Or.inr ⟨rfl, ?_⟩
      rintro ⟨e, r, h⟩
      obtain ⟨stream', names', h6, h7, _⟩ := hno h
      have hst : stream' = stream ∧ names' = names := by
        exact places_unique h6.places k2
      obtain ⟨rfl, rfl⟩ := hst
      have := (buildName_some (names'.map (slice · 2 32)) (u8 stream' 3) (parts_even fun s hs => hl' s (hmem s hs)) (by simpa using hne) e.name).mpr h7.name
      rw [h5] at this
      cases this
    | some name =>
      refine Or.inl ⟨_, _, rfl, rest.take (u8 slot 1), stream, names, (List.take_append_drop _ _).symm, hset, (hdesc name).mp h5⟩

/-! ### The listing -/

theorem scan_skip (isRoot : Bool) (l : List Bytes) (k labels bitmaps : Nat) :
    scan isRoot l k labels bitmaps = scan isRoot (l.drop k) 0 labels bitmaps := by
  induction l generalizing k with
  | nil => rw [List.drop_nil]; rw [scan, scan]
  | cons x l ih =>
    cases k with
    | zero => rfl
    | succ k => rw [scan, List.drop_succ_cons]; exact ih k

theorem label_even (slot : Bytes) (hs : slot.length = 32) (h : u8 slot 1 ≤ 15) : (slice slot 2 (2 + u8 slot 1 * 2)).length = 2 * u8 slot 1 := by
  rw [slice_length, hs]; omega

/-- A label. -/
theorem labelOf_spec (slot : Bytes) (hs : slot.length = 32) :
    (u8 slot 1 = 0 ∧ labelOf slot = .ok []) ∨ (∃ s, Label slot s ∧ labelOf slot = .ok [.label s]) ∨
    (u8 slot 1 ≠ 0 ∧ (¬ ∃ s, Label slot s) ∧ labelOf slot = .error .DirectoryEntriesException) := by
  unfold labelOf
  by_cases h1 : u8 slot 1 > 15
  · rw [if_pos h1]
    refine Or.inr (Or.inr ⟨by omega, ?_, rfl⟩)
    rintro ⟨s, h⟩
    have := h.2.1
    omega
  rw [if_neg h1]
  by_cases h2 : u8 slot 1 > 0
  rotate_left
  · rw [if_neg h2]
    exact Or.inl ⟨by omega, rfl⟩
  rw [if_pos h2]
  have he := label_even slot hs (by omega)
  have hlab : ∀ s, Label slot s ↔ s = utf16Decode (cutNull (slice slot 2 (2 + u8 slot 1 * 2))) ∧ s ≠ [] ∧ ∀ c ∈ s, ¬ ForbiddenInName c := by
    intro s
    unfold Label
    rw [Nat.mul_comm 2]
    constructor
    · rintro ⟨_, _, units, h3, h4⟩
      rw [(beforeNull_iff _ _ (by omega)).mp h3] at h4
      exact h4
    · intro h
      exact ⟨by omega, by omega, _, (beforeNull_iff _ _ (by omega)).mpr rfl, h⟩
  have hlen : ¬ (utf16Decode (cutNull (slice slot 2 (2 + u8 slot 1 * 2)))).length > u8 slot 1 := by
    obtain ⟨rest, h3, h4, _⟩ := Verif.Props.cutNull_spec (slice slot 2 (2 + u8 slot 1 * 2)) (by omega)
    have := utf16Decode_length _ h4
    have h5 := congrArg List.length h3
    rw [List.length_append, he] at h5
    unfold cutNull
    omega
  unfold buildLabel
  simp only []
  generalize utf16Decode (cutNull (slice slot 2 (2 + u8 slot 1 * 2))) = name at hlab hlen ⊢
  by_cases h3 : name = []
  · rw [if_pos (by simpa using h3)]
    refine Or.inr (Or.inr ⟨by omega, ?_, rfl⟩)
    rintro ⟨s, h⟩
    have := (hlab s).mp h
    exact this.2.1 (this.1.trans h3)
  rw [if_neg (by simpa using h3), if_neg hlen]
  by_cases h4 : ∃ c ∈ name, ForbiddenInName c
  · rw [if_pos ((any_forbidden name).mpr h4)]
    refine Or.inr (Or.inr ⟨by omega, ?_, rfl⟩)
    rintro ⟨s, h⟩
    have := (hlab s).mp h
    obtain ⟨c, hc, hf⟩ := h4
    exact this.2.2 c (this.1 ▸ hc) hf
  · rw [if_neg (fun h => h4 ((any_forbidden name).mp h))]
    exact Or.inr (Or.inl ⟨name, (hlab name).mpr ⟨rfl, h3, fun c hc hf => h4 ⟨c, hc, hf⟩⟩, rfl⟩)

/-- The parts of a name outside of a set: all of them are entries with the same type. -/
theorem orphanParts_same (t n : Nat) (slot : Bytes) (l : List Bytes) :
    ∀ s ∈ l.take ((orphanParts t n (slot :: l)).length - 1), u8 s 0 = t := by
  induction n generalizing slot l with
  | zero => simp [orphanParts]
  | succ n ih =>
    rw [orphanParts.eq_def]
    dsimp only
    split
    · simp
    · rw [List.length_cons, Nat.add_sub_cancel]
      split
      · simp
      · match l with
        | [] => simp
        | next :: l' =>
          dsimp only
          split
          · rename_i h
            intro s hs
            match hn : (orphanParts t n (next :: l')).length with
            | 0 => rw [hn] at hs; simp at hs
            | k + 1 =>
              rw [hn, List.take_succ_cons] at hs
              rcases List.mem_cons.mp hs with rfl | hs
              · exact h
              · have := ih next l'
                rw [hn] at this
                exact this s hs
          · simp

/-- Secondary entries outside of a set are skipped. -/
theorem listing_skips {isRoot : Bool} {labels bitmaps : Nat} {l : List Bytes} {items : List Item} {failed : Bool} (pre : List Bytes)
    (hp : ∀ s ∈ pre, Secondary s) (h : Listing isRoot labels bitmaps l items failed) : Listing isRoot labels bitmaps (pre ++ l) items failed := by
  induction pre with
  | nil => exact h
  | cons x pre ih =>
    have hx := hp x (by simp)
    unfold Secondary entryKind at hx
    refine .skip ?_ ?_ ?_ (ih fun s hs => hp s (by simp [hs]))
    · unfold EndsAt
      simp only [List.mem_cons, List.not_mem_nil, or_false]
      omega
    · simp only [List.mem_cons, List.not_mem_nil, or_false]
      omega
    · rintro ⟨e, r, _, _, _, _, h2, _⟩
      have := h2.file
      unfold entryKind at this
      omega

theorem notOrphans_append (a b : List Item) : notOrphans (a ++ b) = notOrphans a ++ notOrphans b := by
  unfold notOrphans; rw [List.filter_append]

theorem scan_listing (isRoot : Bool) (n : Nat) : ∀ (l : List Bytes), l.length ≤ n → (∀ s ∈ l, s.length = 32) → ∀ labels bitmaps,
    (∀ e, (scan isRoot l 0 labels bitmaps).err = some e → e = .DirectoryEntriesException) ∧
    Listing isRoot labels bitmaps l (notOrphans (scan isRoot l 0 labels bitmaps).items) (scan isRoot l 0 labels bitmaps).err.isSome := by
  induction n with
  | zero =>
    intro l hn hl labels bitmaps
    match l, hn with
    | [], _ => rw [scan]; exact ⟨(fun e h => by cases h), .nil⟩
  | succ n ih =>
    intro l hn hl labels bitmaps
    match l, hn, hl with
    | [], _, _ => rw [scan]; exact ⟨(fun e h => by cases h), .nil⟩
    | slot :: l, hn, hl =>
    have hs := hl slot (by simp)
    have hl' : ∀ s ∈ l, s.length = 32 := fun s h => hl s (by simp [h])
    have hn' : l.length ≤ n := by rw [List.length_cons] at hn; omega
    have next := ih l hn' hl'
    have hsub : ∀ k, (∀ s ∈ l.drop k, s.length = 32) ∧ (l.drop k).length ≤ n := fun k =>
      ⟨fun s h => hl' s (List.mem_of_mem_drop h), by rw [List.length_drop]; omega⟩
    rw [scan]
    simp only [withoutInUse_eq]
    have hu8 := u8_lt slot 0
    have hiu := isInUse_iff slot
    have hkind : entryKind slot = u8 slot 0 % 128 := rfl
    have hin : entryInUse slot ↔ 128 ≤ u8 slot 0 := Iff.rfl
    have hnofile : entryKind slot ≠ 5 → ¬ ∃ e r, FileAt slot l e r := by
      rintro h ⟨e, r, _, _, _, _, h2, _⟩
      exact h h2.file
    by_cases h1 : u8 slot 0 = 0
    · rw [if_pos h1]
      exact ⟨(fun e h => by cases h), .ends (Or.inl h1)⟩
    rw [if_neg h1]
    by_cases h2 : u8 slot 0 = 0x80
    · rw [if_pos h2]
      cases isRoot with
      | true => exact ⟨fun e h => (Option.some.inj h).symm, .fails rfl (Or.inl h2)⟩
      | false => exact ⟨(fun e h => by cases h), .ends (Or.inr ⟨rfl, by simp [h2]⟩)⟩
    rw [if_neg h2]
    by_cases h3 : Secondary slot
    · -- a secondary entry
      rw [if_neg (fun h => (typeCategory_zero slot).mp h h3)]
      have one : Listing isRoot labels bitmaps (slot :: l) (notOrphans (scan isRoot l 0 labels bitmaps).items) (scan isRoot l 0 labels bitmaps).err.isSome :=
        listing_skips [slot] (by simpa using h3) (next labels bitmaps).2
      split
      · rename_i h4
        split
        · cases buildName (orphanParts (u8 slot 0) 17 (slot :: l)) none with
          | none => exact ⟨(next labels bitmaps).1, one⟩
          | some name =>
            dsimp only [Gen.cons]
            rw [scan_skip]
            have k := ih (l.drop ((orphanParts (u8 slot 0) 17 (slot :: l)).length - 1)) (hsub _).2 (hsub _).1 labels bitmaps
            refine ⟨k.1, ?_⟩
            have := listing_skips (slot :: l.take ((orphanParts (u8 slot 0) 17 (slot :: l)).length - 1)) (fun s hs => ?_) k.2
            · rw [List.cons_append, List.take_append_drop] at this
              exact this
            · rcases List.mem_cons.mp hs with rfl | hs
              · exact h3
              · have := orphanParts_same _ _ _ _ s hs
                unfold Secondary entryKind at h3 ⊢
                rw [this]
                exact h3
        · exact ⟨(next labels bitmaps).1, one⟩
      · exact ⟨(next labels bitmaps).1, one⟩
    rw [if_pos ((typeCategory_zero slot).mpr h3)]
    unfold Secondary at h3
    by_cases h4 : isRoot = false ∧ isInUse (u8 slot 0) = true ∧ entryKind slot ∈ [0x01, 0x02, 0x03]
    · rw [if_pos h4]
      refine ⟨(fun e h => by cases h), .ends (Or.inr ⟨h4.1, ?_⟩)⟩
      have h5 := hin.mp (hiu.mp h4.2.1)
      have h6 := h4.2.2
      simp only [List.mem_cons, List.not_mem_nil, or_false] at h6 ⊢
      omega
    rw [if_neg h4]
    have hends : ¬ EndsAt isRoot slot := by
      rintro (h | ⟨h, h'⟩)
      · exact h1 h
      · simp only [List.mem_cons, List.not_mem_nil, or_false] at h'
        refine h4 ⟨h, hiu.mpr (hin.mpr (by omega)), ?_⟩
        simp only [List.mem_cons, List.not_mem_nil, or_false]
        omega
    have skip : ¬ (isRoot = true ∧ u8 slot 0 ∈ [0x81, 0x83]) → (¬ ∃ e r, FileAt slot l e r) →
        (∀ e, (scan isRoot l 0 labels bitmaps).err = some e → e = .DirectoryEntriesException) ∧
        Listing isRoot labels bitmaps (slot :: l) (notOrphans (scan isRoot l 0 labels bitmaps).items) (scan isRoot l 0 labels bitmaps).err.isSome := by
      intro k1 k2
      refine ⟨(next labels bitmaps).1, .skip hends ?_ k2 (next labels bitmaps).2⟩
      rintro ⟨k3, k4⟩
      refine k1 ⟨k3, ?_⟩
      simp only [List.mem_cons, List.not_mem_nil, or_false] at k4 ⊢
      omega
    have noroot : entryKind slot ≠ 1 → entryKind slot ≠ 3 → ¬ (isRoot = true ∧ u8 slot 0 ∈ [0x81, 0x83]) := by
      rintro k1 k2 ⟨_, k⟩
      simp only [List.mem_cons, List.not_mem_nil, or_false] at k
      omega
    by_cases h5 : isRoot = false ∧ isInUse (u8 slot 0) = true ∧ entryKind slot = 0x20
    · rw [if_pos h5]
      exact skip (noroot (by omega) (by omega)) (hnofile (by omega))
    rw [if_neg h5]
    by_cases h6 : entryKind slot = 0x21
    · rw [if_pos h6]
      exact skip (noroot (by omega) (by omega)) (hnofile (by omega))
    rw [if_neg h6]
    by_cases h7 : entryKind slot = 0x22
    · rw [if_pos h7]
      exact skip (noroot (by omega) (by omega)) (hnofile (by omega))
    rw [if_neg h7]
    by_cases h8 : entryKind slot = 0x05
    · rw [if_pos h8]
      rcases fileSet_spec slot l hs hl' h8 with ⟨e, k, k1, k2⟩ | ⟨k1, k2⟩
      · rw [k1]
        dsimp only [Gen.cons]
        rw [scan_skip]
        have k3 := ih (l.drop k) (hsub k).2 (hsub k).1 labels bitmaps
        exact ⟨k3.1, .file k2 k3.2⟩
      · rw [k1]
        exact skip (noroot (by omega) (by omega)) k2
    rw [if_neg h8]
    by_cases h9 : isRoot = true ∧ entryKind slot = 0x03 ∧ isInUse (u8 slot 0) = true
    · rw [if_pos h9]
      have ht : u8 slot 0 = 0x83 := by
        have := hin.mp (hiu.mp h9.2.2)
        omega
      by_cases h10 : labels + 1 ≥ 2
      · rw [if_pos h10]
        exact ⟨fun e h => (Option.some.inj h).symm, .fails h9.1 (Or.inr (Or.inl ⟨ht, Or.inl (by omega)⟩))⟩
      rw [if_neg h10]
      have h11 : labels = 0 := by omega
      subst h11
      have k := next 1 bitmaps
      rcases labelOf_spec slot hs with ⟨m1, m2⟩ | ⟨s, m1, m2⟩ | ⟨m1, m2, m3⟩
      · rw [m2]
        exact ⟨k.1, .noLabel h9.1 ht m1 k.2⟩
      · rw [m2]
        exact ⟨k.1, .label h9.1 ht m1 k.2⟩
      · rw [m3]
        exact ⟨fun e h => (Option.some.inj h).symm, .fails h9.1 (Or.inr (Or.inl ⟨ht, Or.inr ⟨m1, m2⟩⟩))⟩
    rw [if_neg h9]
    by_cases h10 : isRoot = true ∧ entryKind slot = 0x01 ∧ isInUse (u8 slot 0) = true
    · rw [if_pos h10]
      have ht : u8 slot 0 = 0x81 := by
        have := hin.mp (hiu.mp h10.2.2)
        omega
      by_cases h11 : bitmaps + 1 ≥ 3
      · rw [if_pos h11]
        exact ⟨fun e h => (Option.some.inj h).symm, .fails h10.1 (Or.inr (Or.inr ⟨ht, by omega⟩))⟩
      rw [if_neg h11]
      have k := next labels (bitmaps + 1)
      have hbit : u8 slot 1 &&& 1 = u8 slot 1 % 2 := and_mask _ 1
      dsimp only [Gen.cons]
      rw [hbit]
      exact ⟨k.1, .bitmap h10.1 ht (by omega) k.2⟩
    rw [if_neg h10]
    refine skip ?_ (hnofile h8)
    rintro ⟨k1, k2⟩
    simp only [List.mem_cons, List.not_mem_nil, or_false] at k2
    rcases k2 with k2 | k2
    · exact h10 ⟨k1, by omega, hiu.mpr (hin.mpr (by omega))⟩
    · exact h9 ⟨k1, by omega, hiu.mpr (hin.mpr (by omega))⟩

/-- The entries of a directory. -/
def entriesOf (buf : Bytes) : List Bytes := (List.range (buf.length / 32)).map fun i => slice buf (32 * i) (32 * i + 32)

/-- C69: the results for every directory (other than names outside of a set) are those of the specification: a file
for each valid entry set, in their order, and the label and the bitmaps of the root.  The listing fails only in the root,
and only as the specification says. -/
theorem C69_listing (isRoot : Bool) (buf : Bytes) (h : 512 ≤ buf.length) (h' : buf.length % 512 = 0) :
    (∀ e, (listDirectory isRoot buf).err = some e → e = .DirectoryEntriesException) ∧
    Listing isRoot 0 0 (entriesOf buf) (notOrphans (listDirectory isRoot buf).items) (listDirectory isRoot buf).err.isSome := by
  unfold listDirectory openDirectory
  rw [if_neg (by omega)]
  exact scan_listing isRoot _ (slots buf) (Nat.le_refl _) (Verif.Props.slots_length (by omega)) 0 0

/-- Buffers of other lengths are refused. -/
theorem C69_refused (isRoot : Bool) (buf : Bytes) (h : buf.length < 512 ∨ buf.length % 512 ≠ 0) :
    listDirectory isRoot buf = .fail .DirectoryEntriesException := by
  unfold listDirectory openDirectory
  rw [if_pos h]

theorem listing_files {isRoot : Bool} {labels bitmaps : Nat} {l : List Bytes} {items : List Item} {failed : Bool}
    (h : Listing isRoot labels bitmaps l items failed) {e : FileEntry} (he : Item.file e ∈ items) :
    ∃ before primary l' rest, l = before ++ primary :: l' ∧ FileAt primary l' e rest := by
  induction h with
  | nil => cases he
  | ends => cases he
  | fails => cases he
  | @file labels bitmaps slot l e' rest items failed hf _ ih =>
    rcases List.mem_cons.mp he with he | he
    · cases he
      exact ⟨[], slot, l, rest, rfl, hf⟩
    · obtain ⟨before, primary, l', rest', h1, h2⟩ := ih he
      obtain ⟨secondary, _, _, h3, _⟩ := hf
      exact ⟨slot :: secondary ++ before, primary, l', rest', by rw [h3, h1]; simp, h2⟩
  | @label _ slot l s _ _ _ _ _ _ ih =>
    rcases List.mem_cons.mp he with he | he
    · cases he
    · obtain ⟨before, primary, l', rest', h1, h2⟩ := ih he
      exact ⟨slot :: before, primary, l', rest', by rw [h1]; simp, h2⟩
  | @noLabel _ slot l _ _ _ _ _ _ ih =>
    obtain ⟨before, primary, l', rest', h1, h2⟩ := ih he
    exact ⟨slot :: before, primary, l', rest', by rw [h1]; simp, h2⟩
  | @bitmap _ _ slot l _ _ _ _ _ _ ih =>
    rcases List.mem_cons.mp he with he | he
    · cases he
    · obtain ⟨before, primary, l', rest', h1, h2⟩ := ih he
      exact ⟨slot :: before, primary, l', rest', by rw [h1]; simp, h2⟩
  | @skip _ _ slot l _ _ _ _ _ _ ih =>
    obtain ⟨before, primary, l', rest', h1, h2⟩ := ih he
    exact ⟨slot :: before, primary, l', rest', by rw [h1]; simp, h2⟩

/-- C69: every reported file comes from an entry set, of 3 to 65 consecutive entries and with the required places; the
stored checksum of an allocated one is the computed one. -/
theorem C69_set (isRoot : Bool) (buf : Bytes) (e : FileEntry) (he : .file e ∈ (listDirectory isRoot buf).items) :
    ∃ before primary secondary after stream names, entriesOf buf = before ++ primary :: (secondary ++ after) ∧
      EntrySet primary secondary stream names ∧ Describes primary stream names e ∧
      (3 ≤ (primary :: secondary).length ∧ (primary :: secondary).length ≤ 65) ∧
      (e.isDeleted = false → u16 primary 2 = setChecksum (primary ++ secondary.flatten)) := by
  by_cases h : buf.length < 512 ∨ buf.length % 512 ≠ 0
  · rw [C69_refused isRoot buf h] at he
    cases he
  have hl := (C69_listing isRoot buf (by omega) (by omega)).2
  obtain ⟨before, primary, l', rest, h1, secondary, stream, names, h2, h3, h4⟩ :=
    listing_files hl (e := e) (by unfold notOrphans; rw [List.mem_filter]; exact ⟨he, rfl⟩)
  refine ⟨before, primary, secondary, rest, stream, names, by rw [h1, h2], h3, h4, ?_, fun hd => h3.checksum ?_⟩
  · have := h3.bounds
    rw [List.length_cons]
    omega
  · have := h4.deleted
    rw [hd] at this
    exact Classical.byContradiction fun hn => by simpa using this.mpr hn

/-- C69: only the listing of a root directory can fail. -/
theorem C69_no_failure (buf : Bytes) (h : 512 ≤ buf.length) (h' : buf.length % 512 = 0) : (listDirectory false buf).err = none := by
  have aux : ∀ {labels bitmaps l items failed}, Listing false labels bitmaps l items failed → failed = false := by
    intro labels bitmaps l items failed hl
    induction hl with
    | nil => rfl
    | ends => rfl
    | fails h => cases h
    | file _ _ ih => exact ih
    | label h => cases h
    | noLabel h => cases h
    | bitmap h => cases h
    | skip _ _ _ _ ih => exact ih
  have := aux (C69_listing false buf h h').2
  cases he : (listDirectory false buf).err with
  | none => rfl
  | some e => rw [he] at this; cases this

/-- A set for a photo: the name has two parts. -/
def samplePhoto : Bytes :=
  [0x85, 0x03, 0xE5, 0xA1, 0x20, 0, 0, 0, 0x31, 0x7D, 0x6F, 0x5A, 0x31, 0x7D, 0x6F, 0x5A, 0x31, 0x7D, 0x6F, 0x5A, 0x96, 0, 0x84, 0x84, 0xFC, 0, 0, 0, 0, 0, 0, 0,
   0xC0, 0x01, 0, 0x14, 0x34, 0x12, 0, 0, 0x84, 0x03, 0, 0, 0, 0, 0, 0, 0, 0, 0, 0, 0x05, 0, 0, 0, 0xE8, 0x03, 0, 0, 0, 0, 0, 0,
   0xC1, 0, 0x70, 0, 0x68, 0, 0x6F, 0, 0x74, 0, 0x6F, 0, 0x20, 0, 0x6F, 0, 0x66, 0, 0x20, 0, 0x74, 0, 0x68, 0, 0x65, 0, 0x20, 0, 0x63, 0, 0x61, 0,
   0xC1, 0, 0x74, 0, 0x2E, 0, 0x6A, 0, 0x70, 0, 0x67, 0, 0, 0, 0, 0, 0, 0, 0, 0, 0, 0, 0, 0, 0, 0, 0, 0, 0, 0, 0, 0]

/-- A directory with the set; there is an entry of an unknown type before it, and it ends with an empty entry. -/
def samplePhotos : Bytes := 0x19 :: List.replicate 31 7 ++ samplePhoto ++ List.replicate 352 0

example : listDirectory false samplePhotos = ⟨[.file
    { isDeleted := false, isDirectory := false, name := Str.ofString "photo of the cat.jpg"
      atime := some ⟨⟨2025, 3, 15⟩, ⟨15, 41, 34⟩, 0⟩, atz := some (-4), mtime := some ⟨⟨2025, 3, 15⟩, ⟨15, 41, 34⟩, 0⟩, mtz := some 4
      ctime := some ⟨⟨2025, 3, 15⟩, ⟨15, 41, 35⟩, 500000⟩, ctz := some 4, size := 1000, validDataLength := 900, attributes := 0x20
      firstCluster := 5, isEncrypted := false, noFatChain := false }], none⟩ := by decide +kernel

/-- With another byte of the last part of the name, the checksum is wrong and the file is not listed. -/
example : listDirectory false (samplePhotos.set 130 0x6B) = ⟨[.orphan (Str.ofString "photo of the cak.jpg")], none⟩ := by decide +kernel

/-! ### C70 -/

/-- C70 is false: a name that is longer than the length in the stream extension is cut and not checked.  Here is an
allocated file, from a valid set, that is reported with the name "a/b". -/
def sampleCut : Bytes :=
  [0x85, 0x02, 0, 0x52, 0x20, 0, 0, 0, 0x31, 0x7D, 0x6F, 0x5A, 0x31, 0x7D, 0x6F, 0x5A, 0x31, 0x7D, 0x6F, 0x5A, 0x96, 0, 0x84, 0x84, 0xFC, 0, 0, 0, 0, 0, 0, 0,
   0xC0, 0x01, 0, 0x03, 0x34, 0x12, 0, 0, 0x84, 0x03, 0, 0, 0, 0, 0, 0, 0, 0, 0, 0, 0x05, 0, 0, 0, 0xE8, 0x03, 0, 0, 0, 0, 0, 0,
   0xC1, 0, 0x61, 0, 0x2F, 0, 0x62, 0, 0x63, 0, 0x64, 0, 0, 0, 0, 0, 0, 0, 0, 0, 0, 0, 0, 0, 0, 0, 0, 0, 0, 0, 0, 0] ++
  List.replicate 416 0

theorem C70_cut_name : ∃ e, .file e ∈ (listDirectory false sampleCut).items ∧ e.isDeleted = false ∧ e.name = Str.ofString "a/b" := by
  refine ⟨{ isDeleted := false, isDirectory := false, name := Str.ofString "a/b"
            atime := some ⟨⟨2025, 3, 15⟩, ⟨15, 41, 34⟩, 0⟩, atz := some (-4), mtime := some ⟨⟨2025, 3, 15⟩, ⟨15, 41, 34⟩, 0⟩, mtz := some 4
            ctime := some ⟨⟨2025, 3, 15⟩, ⟨15, 41, 35⟩, 500000⟩, ctz := some 4, size := 1000, validDataLength := 900, attributes := 0x20
            firstCluster := 5, isEncrypted := false, noFatChain := false }, ?_, rfl, rfl⟩
  decide +kernel

/-- C70, what holds: a file has a name with a forbidden character only if the text in its set is longer than the length
in the stream extension, and the name is that text, cut to the length.  (Full claim: never.) -/
theorem C70_names_partial (isRoot : Bool) (buf : Bytes) (e : FileEntry) (he : .file e ∈ (listDirectory isRoot buf).items)
    (c : Nat) (hc : c ∈ e.name) (hf : ForbiddenInName c) :
    ∃ before primary secondary after stream names units, entriesOf buf = before ++ primary :: (secondary ++ after) ∧
      EntrySet primary secondary stream names ∧ BeforeNull (names.map (slice · 2 32)).flatten units ∧
      u8 stream 3 < (utf16Decode units).length ∧ e.name = (utf16Decode units).take (u8 stream 3) := by
  obtain ⟨before, primary, secondary, after, stream, names, h1, h2, h3, _⟩ := C69_set isRoot buf e he
  obtain ⟨units, h4, h5, h6, h7⟩ := h3.name
  by_cases h8 : u8 stream 3 < (utf16Decode units).length
  · exact ⟨before, primary, secondary, after, stream, names, units, h1, h2, h4, h8, h6 h8⟩
  · exact absurd hf ((h7 h8).2.1 c hc)

theorem scan_orphans (isRoot : Bool) (n : Nat) : ∀ (l : List Bytes), l.length ≤ n → ∀ labels bitmaps s,
    .orphan s ∈ (scan isRoot l 0 labels bitmaps).items → GoodText s := by
  induction n with
  | zero =>
    intro l hn labels bitmaps s h
    match l, hn with
    | [], _ => rw [scan] at h; cases h
  | succ n ih =>
    intro l hn labels bitmaps s h
    match l, hn with
    | [], _ => rw [scan] at h; cases h
    | slot :: l, hn =>
    have hn' : l.length ≤ n := by rw [List.length_cons] at hn; omega
    have next := ih l hn'
    have drop : ∀ k labels bitmaps s, .orphan s ∈ (scan isRoot l k labels bitmaps).items → GoodText s := by
      intro k labels bitmaps s h
      rw [scan_skip] at h
      exact ih _ (by rw [List.length_drop]; omega) _ _ _ h
    have cons : ∀ {g : Gen Item} {x : Item}, (∀ t, x ≠ .orphan t) → .orphan s ∈ (g.cons x).items → .orphan s ∈ g.items := by
      intro g x hx h
      rcases List.mem_cons.mp h with h | h
      · exact absurd h.symm (hx s)
      · exact h
    revert h
    rw [scan]
    simp only [withoutInUse_eq]
    have empty : ∀ {e : Exc}, .orphan s ∈ (Gen.fail e : Gen Item).items → GoodText s := fun h => by cases h
    by_cases h1 : u8 slot 0 = 0
    · rw [if_pos h1]; intro h; cases h
    rw [if_neg h1]
    by_cases h2 : u8 slot 0 = 0x80
    · rw [if_pos h2]; intro h; cases isRoot <;> cases h
    rw [if_neg h2]
    by_cases h3 : typeCategory (u8 slot 0) = 0
    rotate_left
    · rw [if_neg h3]
      by_cases h4 : entryKind slot = 0x41
      · rw [if_pos h4]
        by_cases h5 : (orphanParts (u8 slot 0) 17 (slot :: l)).length > 0
        · rw [if_pos h5]
          cases hb : buildName (orphanParts (u8 slot 0) 17 (slot :: l)) none with
          | none => exact next _ _ _
          | some name =>
            intro h
            rcases List.mem_cons.mp h with h | h
            · cases h; exact buildName_orphan hb
            · exact drop _ _ _ _ h
        · rw [if_neg h5]; exact next _ _ _
      · rw [if_neg h4]; exact next _ _ _
    rw [if_pos h3]
    by_cases h4 : isRoot = false ∧ isInUse (u8 slot 0) = true ∧ entryKind slot ∈ [0x01, 0x02, 0x03]
    · rw [if_pos h4]; intro h; cases h
    rw [if_neg h4]
    by_cases h5 : isRoot = false ∧ isInUse (u8 slot 0) = true ∧ entryKind slot = 0x20
    · rw [if_pos h5]; exact next _ _ _
    rw [if_neg h5]
    by_cases h6 : entryKind slot = 0x21
    · rw [if_pos h6]; exact next _ _ _
    rw [if_neg h6]
    by_cases h7 : entryKind slot = 0x22
    · rw [if_pos h7]; exact next _ _ _
    rw [if_neg h7]
    by_cases h8 : entryKind slot = 0x05
    · rw [if_pos h8]
      cases fileSet slot l with
      | error e => exact empty
      | ok r =>
        cases r with
        | none => exact next _ _ _
        | some r => exact fun h => drop _ _ _ _ (cons (fun t => by simp) h)
    rw [if_neg h8]
    by_cases h9 : isRoot = true ∧ entryKind slot = 0x03 ∧ isInUse (u8 slot 0) = true
    · rw [if_pos h9]
      by_cases h10 : labels + 1 ≥ 2
      · rw [if_pos h10]; exact empty
      rw [if_neg h10]
      cases hi : labelOf slot with
      | error e => exact empty
      | ok items =>
        intro h
        rcases List.mem_append.mp h with h | h
        · unfold labelOf at hi
          split at hi
          · cases hi
          · split at hi
            · split at hi
              · cases hi
              · cases hi; simp at h
            · cases hi; simp at h
        · exact next _ _ _ h
    rw [if_neg h9]
    by_cases h10 : isRoot = true ∧ entryKind slot = 0x01 ∧ isInUse (u8 slot 0) = true
    · rw [if_pos h10]
      by_cases h11 : bitmaps + 1 ≥ 3
      · rw [if_pos h11]; exact empty
      rw [if_neg h11]
      exact fun h => next _ _ _ (cons (fun t => by simp) h)
    rw [if_neg h10]; exact next _ _ _

/-- C70: names outside of a set have no forbidden character. -/
theorem C70_orphan (isRoot : Bool) (buf : Bytes) (s : Str) (h : .orphan s ∈ (listDirectory isRoot buf).items) : GoodText s := by
  unfold listDirectory at h
  split at h
  · cases h
  · exact scan_orphans isRoot _ _ (Nat.le_refl _) _ _ _ h

end Verif.Props.ExFAT
