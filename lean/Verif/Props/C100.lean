/-
Property C100: the report on a MoveTable.
-/
import Verif.Proof.MoveReport
import Verif.Props.C51_C52
import Verif.Props.C91_C93
namespace Verif.Props
open Verif.Scripts Verif.MoveTable Verif.Spec.MoveReport Verif.Spec.Text Verif.Proof.MoveReport

theorem upToZero_takeWhile (field : Bytes) : UpToZero field (field.takeWhile (· ≠ 0)) := by
  induction field with
  | nil => exact ⟨List.prefix_refl _, (fun h => by cases h), .inl rfl⟩
  | cons x l ih =>
    obtain ⟨h1, h2, h3⟩ := ih
    by_cases hx : x = 0
    · subst hx
      refine ⟨by simp, by simp, .inr ⟨l, by simp⟩⟩
    · rw [List.takeWhile_cons, if_pos (by simpa using hx)]
      refine ⟨List.cons_prefix_cons.2 ⟨rfl, h1⟩, ?_, ?_⟩
      · simp only [List.mem_cons, not_or]
        exact ⟨fun h => hx h.symm, h2⟩
      · rcases h3 with h3 | ⟨r, h3⟩
        · exact .inl (by rw [h3])
        · exact .inr ⟨r, by rw [List.cons_append, ← h3]⟩

theorem upToZero_unique {field a b : Bytes} (ha : UpToZero field a) (hb : UpToZero field b) : a = b := by
  have key : ∀ {c : Bytes}, UpToZero field c → c = field.takeWhile (· ≠ 0) := by
    intro c hc
    obtain ⟨-, h2, h3⟩ := hc
    have hall : ∀ x ∈ c, (decide (x ≠ 0)) = true := fun x hx => by
      simp only [decide_eq_true_eq]
      rintro rfl
      exact h2 hx
    rcases h3 with rfl | ⟨r, rfl⟩
    · have := List.takeWhile_append_of_pos (l₂ := []) hall
      simpa using this.symm
    · rw [List.takeWhile_append_of_pos hall]; simp
  rw [key ha, key hb]

theorem guidTimestamp_eq (b : Bytes) : guidTimestamp b = (guidUnits b).bind Attributes.decodeGuidTime := by
  have e8 : u8 b 8 = leNat (slice b 8 9) := rfl
  have e6 : u16 b 6 = leNat (slice b 6 8) := rfl
  have e4 : u16 b 4 = leNat (slice b 4 6) := rfl
  have e0 : u32 b 0 = leNat (slice b 0 4) := rfl
  have l8 : leNat (slice b 8 9) < 256 := by
    have := leNat_lt16 (b := slice b 8 9) 2 (by rw [slice_length]; omega); omega
  have l6 : leNat (slice b 6 8) < 65536 := by
    have := leNat_lt16 (b := slice b 6 8) 4 (by rw [slice_length]; omega); omega
  have l4 : leNat (slice b 4 6) < 65536 := by
    have := leNat_lt16 (b := slice b 4 6) 4 (by rw [slice_length]; omega); omega
  have l0 : leNat (slice b 0 4) < 2 ^ 32 := by
    have := leNat_lt16 (b := slice b 0 4) 8 (by rw [slice_length]; omega); omega
  have hv : Attributes.guidVersion b = some 1 ↔ leNat (slice b 6 8) / 4096 = 1 ∧ leNat (slice b 8 9) / 64 = 2 := by
    unfold Attributes.guidVersion
    rw [e8, e6, Nat.shiftRight_eq_div_pow]
    have bits : ∀ n, n < 256 → ((n &&& 0x80 = 0 ↔ n < 128) ∧ (n &&& 0x40 = 0 ↔ n / 64 % 2 = 0)) := by decide +kernel
    obtain ⟨b1, b2⟩ := bits _ l8
    by_cases c1 : leNat (slice b 8 9) < 128
    · rw [if_pos (b1.2 c1)]
      exact ⟨(fun h => by cases h), fun h => by omega⟩
    · rw [if_neg (fun h => c1 (b1.1 h))]
      by_cases c2 : leNat (slice b 8 9) / 64 % 2 = 0
      · rw [if_pos (b2.2 c2), Option.some.injEq]
        constructor
        · intro h; exact ⟨h, by omega⟩
        · intro h; exact h.1
      · rw [if_neg (fun h => c2 (b2.1 h))]
        exact ⟨(fun h => by cases h), fun h => by omega⟩
  have ht : Attributes.guidTime b = leNat (slice b 0 4) + 2 ^ 32 * leNat (slice b 4 6) + 2 ^ 48 * (leNat (slice b 6 8) % 4096) := by
    unfold Attributes.guidTime
    rw [e6, e4, e0, show (0xFFF : Nat) = 2 ^ 12 - 1 from rfl, Nat.and_two_pow_sub_one_eq_mod, Nat.or_assoc,
      shiftLeft_or_of_lt (show leNat (slice b 0 4) < 2 ^ 32 from l0), shiftLeft_or_of_lt (by omega)]
    omega
  unfold guidTimestamp guidUnits
  by_cases hc : leNat (slice b 6 8) / 4096 = 1 ∧ leNat (slice b 8 9) / 64 = 2
  · rw [if_pos (hv.2 hc), if_pos hc, ht]; rfl
  · rw [if_neg (fun h => hc (hv.1 h)), if_neg hc]; rfl

theorem guidTimeText_text (b : Bytes) : TimeText (guidTimeText (guidTimestamp b)) (guidMoment b) := by
  rw [guidTimestamp_eq b]
  unfold guidMoment guidTimeText
  cases hg : (guidUnits b).bind Attributes.decodeGuidTime with
  | none => rfl
  | some m =>
    cases hu : guidUnits b with
    | none => rw [hu] at hg; cases hg
    | some n =>
      rw [hu] at hg
      exact C93_guid_time n m hg

theorem moveTimeText_text (n : Nat) : TimeText (moveTimeText (Attributes.decodeFiletime n)) (filetimeMoment n) := by
  unfold moveTimeText filetimeMoment
  cases h : Attributes.decodeFiletime n with
  | none => rfl
  | some m => exact C93_filetime n m h

theorem headerSection_is {header : Bytes} (h : 72 ≤ header.length) : IsHeaderSection header (headerSection header) := by
  refine ⟨_, _, upToZero_takeWhile _, decodeString_text _, ?_⟩
  unfold headerSection section_ headerVolumeObjectId headerMachineIdRaw
  rw [guidText_eq (by rw [slice_length]; omega)]
  simp [pyJoin, Str.ofString]

theorem entrySection_is {entry : Bytes} (h : entry.length = 124) : ∃ range, timestamp entry = .ok range ∧ IsEntrySection entry (entrySection entry range) := by
  unfold timestamp
  rw [unpackLE_of_length (by rw [slice_length]; omega)]
  refine ⟨_, rfl, _, _, _, _, _, _, _, upToZero_takeWhile _, decodeString_text _, guidTimeText_text _,
    guidTimeText_text _, guidTimeText_text _, moveTimeText_text _, moveTimeText_text _, ?_⟩
  have e1 : leNat (slice entry 116 120) <<< 32 = 2 ^ 32 * leNat (slice entry 116 120) := by rw [Nat.shiftLeft_eq]; omega
  have e2 : leNat (slice entry 116 120) <<< 32 ||| 0xFFFFFFFF = 2 ^ 32 * leNat (slice entry 116 120) + (2 ^ 32 - 1) := by
    rw [shiftLeft_or_of_lt (by decide)]; omega
  rw [e2, e1]
  unfold entrySection section_ entryObjectId entryDroid entryBirthDroid machineIdRaw
  dsimp only
  rw [guidText_eq (b := slice entry 20 36) (by rw [slice_length]; omega), guidText_eq (b := slice entry 36 52) (by rw [slice_length]; omega),
    guidText_eq (b := slice entry 52 68) (by rw [slice_length]; omega), guidText_eq (b := slice entry 84 100) (by rw [slice_length]; omega),
    guidText_eq (b := slice entry 100 116) (by rw [slice_length]; omega)]
  rw [show Str.ofString "\n\nDomain-relative object ID, volume: " = 0x0A :: 0x0A :: Str.ofString "Domain-relative object ID, volume: " from rfl,
    show Str.ofString "\n\nMachine ID: " = 0x0A :: 0x0A :: Str.ofString "Machine ID: " from rfl,
    show Str.ofString "\n\nBirth domain-relative object ID, volume: " = 0x0A :: 0x0A :: Str.ofString "Birth domain-relative object ID, volume: " from rfl,
    show Str.ofString "\n\nTimestamp (range): " = 0x0A :: 0x0A :: Str.ofString "Timestamp (range): " from rfl,
    show Str.ofString "\nDomain-relative object ID, file: " = 0x0A :: Str.ofString "Domain-relative object ID, file: " from rfl,
    show Str.ofString "\nBirth domain-relative object ID, file: " = 0x0A :: Str.ofString "Birth domain-relative object ID, file: " from rfl,
    show Str.ofString "\n * Domain-relative object ID, file: " = 0x0A :: Str.ofString " * Domain-relative object ID, file: " from rfl,
    show Str.ofString "\n * Birth domain-relative object ID, file: " = 0x0A :: Str.ofString " * Birth domain-relative object ID, file: " from rfl,
    show Str.ofString "\n\nGUID timestamps:\n * Object ID: " = 0x0A :: 0x0A :: (Str.ofString "GUID timestamps:" ++ 0x0A :: Str.ofString " * Object ID: ") from rfl]
  simp only [pyJoin, List.append_assoc, List.cons_append, List.nil_append]

theorem sectorEntriesLoop_length (buf : Bytes) (pos : Nat) : ∀ e ∈ (sectorEntriesLoop buf pos).items, e.length = 124 := by
  fun_induction sectorEntriesLoop buf pos with
  | case1 => intro e he; cases he
  | case2 => intro e he; cases he
  | case3 pos h raw hl entry hr ih =>
    intro e he
    rcases List.mem_cons.1 he with rfl | he
    · have hl : (slice buf pos (pos + 124)).length = 124 := Decidable.of_not_not hl
      rw [logEntry_eq hl] at hr
      split at hr
      · cases hr; exact hl
      · cases hr
    · exact ih e he
  | case4 => intro e he; cases he

theorem logEntries_length (file : Bytes) (size : Nat) : ∀ e ∈ (logEntries file size).items, e.length = 124 := by
  unfold logEntries
  generalize logSectors file size = l
  induction l with
  | nil => intro e he; cases he
  | cons s l ih =>
    intro e he
    rw [List.foldr_cons] at he
    unfold Gen.append at he
    have hu : ∀ e ∈ (usedEntries (sectorEntries s)).items, e.length = 124 := fun e he =>
      sectorEntriesLoop_length s 0 e (List.mem_filter.1 he).1
    split at he
    · exact hu e he
    · rcases List.mem_append.1 he with he | he
      · exact hu e he
      · exact ih e he

theorem entrySections_eq (l : List Bytes) (err : Option Exc) (h : ∀ e ∈ l, e.length = 124) : ∃ sections : List Str,
    entrySections l err = ⟨sections, err⟩ ∧ sections.length = l.length ∧
    ∀ (i : Nat) (e : Bytes) (s : Str), l[i]? = some e → sections[i]? = some s → IsEntrySection e s := by
  induction l with
  | nil =>
    refine ⟨[], ?_, rfl, fun i e s h1 _ => by simp at h1⟩
    cases err <;> rfl
  | cons x l ih =>
    obtain ⟨sections, h1, h2, h3⟩ := ih fun e he => h e (List.mem_cons_of_mem _ he)
    obtain ⟨range, r1, r2⟩ := entrySection_is (h x (by simp))
    refine ⟨entrySection x range :: sections, ?_, by simp [h2], ?_⟩
    · rw [entrySections, r1]
      dsimp only
      rw [h1]
      rfl
    · intro i e s he hs
      cases i with
      | zero => simp at he hs; subst he hs; exact r2
      | succ i => exact h3 i e s (by simpa using he) (by simpa using hs)

/-- C100: the report on a table is the section of its header and a section for each of its moves (C51), in order; it goes on for as long as the
table can be read.  Nothing is written when the header is not valid. -/
theorem C100_report (file : Bytes) :
    (∀ e, getHeader file (sectorSize file none) = .error e → processMoveTable file = ⟨[], some e⟩) ∧
    ∀ header, getHeader file (sectorSize file none) = .ok header → ∃ (first : Str) (sections : List Str),
      processMoveTable file = ⟨first :: sections, (logEntries file (sectorSize file none)).err⟩ ∧ IsHeaderSection header first ∧
      sections.length = (logEntries file (sectorSize file none)).items.length ∧
      ∀ (i : Nat) (e : Bytes) (s : Str), (logEntries file (sectorSize file none)).items[i]? = some e → sections[i]? = some s → IsEntrySection e s := by
  constructor
  · intro e he
    unfold processMoveTable
    dsimp only
    rw [he]
    rfl
  · intro header hh
    obtain ⟨sections, h1, h2, h3⟩ := entrySections_eq _ (logEntries file (sectorSize file none)).err (logEntries_length file (sectorSize file none))
    refine ⟨headerSection header, sections, ?_, headerSection_is ?_, h2, h3⟩
    · unfold processMoveTable
      dsimp only
      rw [hh]
      dsimp only
      rw [h1]
      rfl
    · unfold getHeader MoveTable.header at hh
      split at hh
      · cases hh
      · split at hh
        · cases hh
        · next h _ => cases hh; omega

/-! ### Nothing is lost -/

theorem guid_code {a b : Bytes} {x y : Str} (ha : a.length = 16) (hb : b.length = 16) (h : guid a ++ x = guid b ++ y) : a = b ∧ x = y := by
  obtain ⟨h1, h2⟩ := List.append_inj h (by rw [guid_length, guid_length])
  exact ⟨guid_inj ha hb h1, h2⟩

theorem upToZero_length {field name : Bytes} (h : UpToZero field name) : name.length ≤ field.length := h.1.length_le

theorem upToZero_iff {f g a b : Bytes} (ha : UpToZero f a) (hb : UpToZero g b) (h : a = b) : ∀ name, UpToZero f name ↔ UpToZero g name := by
  intro name
  constructor
  · intro hn; rw [upToZero_unique hn ha, h]; exact hb
  · intro hn; rw [upToZero_unique hn hb, ← h]; exact ha

theorem headerSection_code {a b : Bytes} {s t x y : Str} (la : 72 ≤ a.length) (lb : 72 ≤ b.length) (ha : IsHeaderSection a s) (hb : IsHeaderSection b t)
    (h : s ++ x = t ++ y) : SameHeader a b ∧ x = y := by
  obtain ⟨n1, s1, u1, t1, rfl⟩ := ha
  obtain ⟨n2, s2, u2, t2, rfl⟩ := hb
  simp only [List.append_assoc] at h
  have h := List.append_cancel_left h
  have m1 := upToZero_length u1
  have m2 := upToZero_length u2
  rw [slice_length] at m1 m2
  obtain ⟨e1, h⟩ := nameText_end (by omega) (by omega) t1 t2 (by decide) (by decide) (by decide +kernel) h
  obtain ⟨e2, h⟩ := guid_code (by rw [slice_length]; omega) (by rw [slice_length]; omega) h
  exact ⟨⟨upToZero_iff u1 u2 e1, e2⟩, List.append_cancel_left h⟩

theorem texts_code {a b : Bytes} {c1 c2 c3 c4 c5 c6 c7 c8 c9 c10 c11 c12 s1 s2 p1 p2 p3 q1 q2 q3 lo hi lo' hi' x y : Str} {n1 n2 : Bytes}
    (la : a.length = 124) (lb : b.length = 124) (u1 : UpToZero (slice a 68 84) n1) (w1 : NameText s1 n1) (g1 : TimeText p1 (guidMoment (slice a 20 36)))
    (g2 : TimeText p2 (guidMoment (slice a 52 68))) (g3 : TimeText p3 (guidMoment (slice a 100 116)))
    (f1 : TimeText lo (filetimeMoment (2 ^ 32 * leNat (slice a 116 120))))
    (f2 : TimeText hi (filetimeMoment (2 ^ 32 * leNat (slice a 116 120) + (2 ^ 32 - 1))))
    (u2 : UpToZero (slice b 68 84) n2) (w2 : NameText s2 n2) (g1' : TimeText q1 (guidMoment (slice b 20 36)))
    (g2' : TimeText q2 (guidMoment (slice b 52 68))) (g3' : TimeText q3 (guidMoment (slice b 100 116)))
    (f1' : TimeText lo' (filetimeMoment (2 ^ 32 * leNat (slice b 116 120))))
    (f2' : TimeText hi' (filetimeMoment (2 ^ 32 * leNat (slice b 116 120) + (2 ^ 32 - 1))))
    (hlen : 17 ≤ c5.length) (hq : 0x22 ∉ c5) (hov : ∀ k, k < c5.length → 1 ≤ k → ∃ i, i < c5.length ∧ (i + k < c5.length ∧ c5[i + k]? ≠ c5[i]?))
    (h : c1 ++ guid (slice a 20 36) ++ c2 ++ guid (slice a 36 52) ++ c3 ++ guid (slice a 52 68) ++ c4 ++ s1 ++ c5 ++ guid (slice a 84 100) ++ c6 ++
        guid (slice a 100 116) ++ c7 ++ p1 ++ c8 ++ p2 ++ c9 ++ p3 ++ c10 ++ lo ++ c11 ++ hi ++ c12 ++ x =
      c1 ++ guid (slice b 20 36) ++ c2 ++ guid (slice b 36 52) ++ c3 ++ guid (slice b 52 68) ++ c4 ++ s2 ++ c5 ++ guid (slice b 84 100) ++ c6 ++
        guid (slice b 100 116) ++ c7 ++ q1 ++ c8 ++ q2 ++ c9 ++ q3 ++ c10 ++ lo' ++ c11 ++ hi' ++ c12 ++ y) : SameMove a b ∧ x = y := by
  simp only [List.append_assoc] at h
  have m1 := upToZero_length u1
  have m2 := upToZero_length u2
  rw [slice_length] at m1 m2
  have h := List.append_cancel_left h
  obtain ⟨e1, h⟩ := guid_code (by rw [slice_length]; omega) (by rw [slice_length]; omega) h
  have h := List.append_cancel_left h
  obtain ⟨e2, h⟩ := guid_code (by rw [slice_length]; omega) (by rw [slice_length]; omega) h
  have h := List.append_cancel_left h
  obtain ⟨e3, h⟩ := guid_code (by rw [slice_length]; omega) (by rw [slice_length]; omega) h
  have h := List.append_cancel_left h
  obtain ⟨e4, h⟩ := nameText_end (by omega) (by omega) w1 w2 hlen hq hov h
  obtain ⟨e5, h⟩ := guid_code (by rw [slice_length]; omega) (by rw [slice_length]; omega) h
  have h := List.append_cancel_left h
  obtain ⟨e6, h⟩ := guid_code (by rw [slice_length]; omega) (by rw [slice_length]; omega) h
  have h := List.append_cancel_left h
  obtain ⟨-, h⟩ := timeText_inj g1 g1' h
  have h := List.append_cancel_left h
  obtain ⟨-, h⟩ := timeText_inj g2 g2' h
  have h := List.append_cancel_left h
  obtain ⟨-, h⟩ := timeText_inj g3 g3' h
  have h := List.append_cancel_left h
  obtain ⟨e7, h⟩ := timeText_inj f1 f1' h
  have h := List.append_cancel_left h
  obtain ⟨e8, h⟩ := timeText_inj f2 f2' h
  exact ⟨⟨e1, e2, e3, upToZero_iff u1 u2 e4, e5, e6, e7, e8⟩, List.append_cancel_left h⟩

theorem entrySection_code {a b : Bytes} {s t x y : Str} (la : a.length = 124) (lb : b.length = 124) (ha : IsEntrySection a s) (hb : IsEntrySection b t)
    (h : s ++ x = t ++ y) : SameMove a b ∧ x = y := by
  obtain ⟨n1, s1, p1, p2, p3, lo, hi, u1, w1, g1, g2, g3, f1, f2, hs⟩ := ha
  obtain ⟨n2, s2, q1, q2, q3, lo', hi', u2, w2, g1', g2', g3', f1', f2', ht⟩ := hb
  rw [hs, ht] at h
  exact texts_code la lb u1 w1 g1 g2 g3 f1 f2 u2 w2 g1' g2' g3' f1' f2' (by decide) (by decide) (by decide +kernel) h

theorem entrySection_nonempty {a : Bytes} {s : Str} (h : IsEntrySection a s) : s ≠ [] := by
  obtain ⟨_, _, _, _, _, _, _, -, -, -, -, -, -, -, hs⟩ := h
  rw [hs]
  intro hc
  simp only [List.append_eq_nil_iff] at hc
  have : Str.ofString "Object ID: " ≠ [] := by decide
  simp only [this, false_and] at hc

/-- C100: nothing that is shown is ambiguous: tables with the same report have the same machine name and volume in their headers, and the same
moves (the IDs, the names and the times). -/
theorem C100_lossless (a b ha hb : Bytes) (h1 : getHeader a (sectorSize a none) = .ok ha) (h2 : getHeader b (sectorSize b none) = .ok hb)
    (h : (processMoveTable a).items.flatten = (processMoveTable b).items.flatten) :
    SameHeader ha hb ∧
    (logEntries a (sectorSize a none)).items.length = (logEntries b (sectorSize b none)).items.length ∧
    ∀ (i : Nat) (x y : Bytes), (logEntries a (sectorSize a none)).items[i]? = some x → (logEntries b (sectorSize b none)).items[i]? = some y →
      SameMove x y := by
  obtain ⟨s, l, p1, p2, p3, p4⟩ := (C100_report a).2 ha h1
  obtain ⟨t, m, q1, q2, q3, q4⟩ := (C100_report b).2 hb h2
  have hlen : ∀ {f h : Bytes} {n : Nat}, getHeader f n = .ok h → 72 ≤ h.length := by
    intro f h n hh
    unfold getHeader MoveTable.header at hh
    split at hh
    · cases hh
    · split at hh
      · cases hh
      · next h _ => cases hh; omega
  rw [p1, q1] at h
  simp only [List.flatten_cons] at h
  obtain ⟨e1, h3⟩ := headerSection_code (hlen h1) (hlen h2) p2 q2 h
  clear h
  have h := h3
  clear h3
  refine ⟨e1, ?_⟩
  have la := logEntries_length a (sectorSize a none)
  have lb := logEntries_length b (sectorSize b none)
  generalize (logEntries a (sectorSize a none)).items = A at *
  generalize (logEntries b (sectorSize b none)).items = B at *
  clear p1 q1 h1 h2 p2 q2 e1 s t
  induction l generalizing A B m with
  | nil =>
    cases A with
    | cons => cases p3
    | nil =>
      cases m with
      | cons c m =>
        exfalso
        cases B with
        | nil => cases q3
        | cons y B =>
          have hn := entrySection_nonempty (q4 0 y c rfl rfl)
          simp at h
          exact hn h.1
      | nil =>
        cases B with
        | cons => cases q3
        | nil => exact ⟨rfl, fun i x y hx => by simp at hx⟩
  | cons s l ih =>
    cases A with
    | nil => cases p3
    | cons x A =>
      cases m with
      | nil =>
        exfalso
        have hn := entrySection_nonempty (p4 0 x s rfl rfl)
        simp at h
        exact hn h.1
      | cons t m =>
        cases B with
        | nil => cases q3
        | cons y B =>
          simp only [List.flatten_cons] at h
          obtain ⟨e, h⟩ := entrySection_code (la x (by simp)) (lb y (by simp)) (p4 0 x s rfl rfl) (q4 0 y t rfl rfl) h
          obtain ⟨r1, r2⟩ := ih (m := m) (A := A) (B := B) (h := h) (p3 := by simpa using p3) (p4 := fun i e s h1 h2 => p4 (i + 1) e s h1 h2)
            (la := fun e he => la e (List.mem_cons_of_mem _ he)) (q3 := by simpa using q3) (q4 := fun i e s h1 h2 => q4 (i + 1) e s h1 h2)
            (lb := fun e he => lb e (List.mem_cons_of_mem _ he))
          refine ⟨by simp [r1], fun i u v hu hv => ?_⟩
          cases i with
          | zero => simp at hu hv; subst hu hv; exact e
          | succ i => exact r2 i u v (by simpa using hu) (by simpa using hv)

/-! ### The report can be written -/

theorem decimalValue_digits {s : Str} {v : Nat} (h : decimalValue s = some v) : ∀ c ∈ s, c < 128 := by
  unfold decimalValue at h
  generalize (some 0 : Option Nat) = init at h
  induction s generalizing init with
  | nil => intro c hc; cases hc
  | cons d s ih =>
    intro c hc
    rw [List.foldl_cons] at h
    rcases List.mem_cons.1 hc with rfl | hc
    · cases init with
      | none =>
        exfalso
        have : ∀ (l : Str), List.foldl (fun acc c => acc.bind fun n => if 0x30 ≤ c ∧ c ≤ 0x39 then some (10 * n + (c - 0x30)) else none) none l = (none : Option Nat) := by
          intro l
          induction l with
          | nil => rfl
          | cons a l ih => exact ih
        rw [Option.bind_none, this s] at h
        cases h
      | some n =>
        by_cases hd : 0x30 ≤ c ∧ c ≤ 0x39
        · omega
        · exfalso
          rw [show ((some n : Option Nat).bind fun n => if 0x30 ≤ c ∧ c ≤ 0x39 then some (10 * n + (c - 0x30)) else none) = none from if_neg hd] at h
          have : ∀ (l : Str), List.foldl (fun acc c => acc.bind fun n => if 0x30 ≤ c ∧ c ≤ 0x39 then some (10 * n + (c - 0x30)) else none) none l = (none : Option Nat) := by
            intro l
            induction l with
            | nil => rfl
            | cons a l ih => exact ih
          rw [this s] at h
          cases h
    · exact ih _ h c hc

theorem scalar_of_lt {c : Nat} (h : c < 128) : scalar c := by unfold scalar; omega

theorem timeText_scalar {s : Str} {t : Option Nat} (h : TimeText s t) : ∀ c ∈ s, scalar c := by
  cases t with
  | none =>
    dsimp only [TimeText] at h
    subst h
    have : ∀ c ∈ Str.ofString "N/A", c < 128 := by decide
    exact fun c hc => scalar_of_lt (this c hc)
  | some t =>
    obtain ⟨Y, M, D, h, m, s, f, y, mo, d, hh, mi, ss, us, rfl, -, -, -, -, -, -, -, v1, v2, v3, v4, v5, v6, v7, -⟩ := h
    intro c hc
    apply scalar_of_lt
    simp only [List.mem_append, List.mem_singleton] at hc
    rcases hc with ((((((((((((hc | hc) | hc) | hc) | hc) | hc) | hc) | hc) | hc) | hc) | hc) | hc) | hc)
    · exact decimalValue_digits v1 c hc
    · omega
    · exact decimalValue_digits v2 c hc
    · omega
    · exact decimalValue_digits v3 c hc
    · omega
    · exact decimalValue_digits v4 c hc
    · omega
    · exact decimalValue_digits v5 c hc
    · omega
    · exact decimalValue_digits v6 c hc
    · omega
    · exact decimalValue_digits v7 c hc

theorem digits_scalar (w n : Nat) : ∀ c ∈ digits w n, scalar c := by
  intro c hc
  rw [digits_eq, List.mem_map] at hc
  obtain ⟨i, -, rfl⟩ := hc
  apply scalar_of_lt
  have := Nat.mod_lt (n / 16 ^ (w - 1 - i)) (show 0 < 16 by decide)
  unfold digit
  split <;> omega

theorem guid_scalar (b : Bytes) : ∀ c ∈ guid b, scalar c := by
  intro c hc
  unfold guid at hc
  simp only [List.mem_append, List.mem_singleton] at hc
  rcases hc with (((((((hc | hc) | hc) | hc) | hc) | hc) | hc) | hc) | hc
  · exact digits_scalar _ _ c hc
  · exact scalar_of_lt (by omega)
  · exact digits_scalar _ _ c hc
  · exact scalar_of_lt (by omega)
  · exact digits_scalar _ _ c hc
  · exact scalar_of_lt (by omega)
  · exact digits_scalar _ _ c hc
  · exact scalar_of_lt (by omega)
  · exact digits_scalar _ _ c hc

theorem nameText_scalar {s : Str} {b : Bytes} (h : NameText s b) : ∀ c ∈ s, scalar c := by
  have k1 : ∀ n, n < 256 → cp866 n < 0xD800 := by decide +kernel
  have k2 : ∀ n, n < 256 → (Spec.MoveReport.windows1252 n).all (· < 0xD800) = true := by decide +kernel
  have hf : ∀ c ∈ b.map (fun x => cp866 x.toNat), scalar c := by
    intro c hc
    obtain ⟨x, -, rfl⟩ := List.mem_map.1 hc
    have := k1 _ x.toNat_lt
    unfold scalar; omega
  rcases h with ⟨h, -⟩ | ⟨second, h1, ⟨-, h⟩ | ⟨-, h⟩⟩
  · rw [h]; exact hf
  · rw [h]; exact hf
  · rw [h]
    intro c hc
    simp only [List.mem_append] at hc
    have a1 : ∀ c ∈ Str.ofString "\"", c < 128 := by decide
    have a2 : ∀ c ∈ Str.ofString "\" (cp-866), \"", c < 128 := by decide
    have a3 : ∀ c ∈ Str.ofString "\" (windows-1252)", c < 128 := by decide
    rcases hc with (((hc | hc) | hc) | hc) | hc
    · exact scalar_of_lt (a1 c hc)
    · exact hf c hc
    · exact scalar_of_lt (a2 c hc)
    · have : some c ∈ b.map (fun x => Spec.MoveReport.windows1252 x.toNat) := by rw [h1]; exact List.mem_map_of_mem hc
      obtain ⟨x, -, hx⟩ := List.mem_map.1 this
      have := k2 _ x.toNat_lt
      rw [hx] at this
      simp at this
      unfold scalar; omega
    · exact scalar_of_lt (a3 c hc)

theorem headerSection_scalar {a : Bytes} {s : Str} (h : IsHeaderSection a s) : ∀ c ∈ s, scalar c := by
  obtain ⟨n1, s1, u1, t1, hs⟩ := h
  rw [hs]
  intro c hc
  simp only [List.mem_append] at hc
  have a1 : ∀ c ∈ Str.ofString "File header:\n * Machine ID: ", c < 128 := by decide
  have a2 : ∀ c ∈ Str.ofString "\n * Volume object ID: ", c < 128 := by decide
  have a3 : ∀ c ∈ Str.ofString "\n\n---\n\n", c < 128 := by decide
  rcases hc with (((hc | hc) | hc) | hc) | hc
  · exact scalar_of_lt (a1 c hc)
  · exact nameText_scalar t1 c hc
  · exact scalar_of_lt (a2 c hc)
  · exact guid_scalar _ c hc
  · exact scalar_of_lt (a3 c hc)

theorem texts_scalar {c1 c2 c3 c4 c5 c6 c7 c8 c9 c10 c11 c12 g1 g2 g3 s g4 g5 p1 p2 p3 lo hi : Str}
    (k : ∀ t ∈ [c1, c2, c3, c4, c5, c6, c7, c8, c9, c10, c11, c12], ∀ c ∈ t, c < 128)
    (l : ∀ t ∈ [g1, g2, g3, s, g4, g5, p1, p2, p3, lo, hi], ∀ c ∈ t, scalar c) :
    ∀ c ∈ c1 ++ g1 ++ c2 ++ g2 ++ c3 ++ g3 ++ c4 ++ s ++ c5 ++ g4 ++ c6 ++ g5 ++ c7 ++ p1 ++ c8 ++ p2 ++ c9 ++ p3 ++ c10 ++ lo ++ c11 ++ hi ++ c12, scalar c := by
  have k' : ∀ t ∈ [c1, c2, c3, c4, c5, c6, c7, c8, c9, c10, c11, c12], ∀ c ∈ t, scalar c := fun t ht c hc => scalar_of_lt (k t ht c hc)
  simp only [List.mem_cons, List.not_mem_nil, or_false, forall_eq_or_imp, forall_eq] at k' l
  obtain ⟨k1, k2, k3, k4, k5, k6, k7, k8, k9, k10, k11, k12⟩ := k'
  obtain ⟨l1, l2, l3, l4, l5, l6, l7, l8, l9, l10, l11⟩ := l
  have app : ∀ {a b : Str}, (∀ c ∈ a, scalar c) → (∀ c ∈ b, scalar c) → ∀ c ∈ a ++ b, scalar c := fun ha hb c hc =>
    (List.mem_append.1 hc).elim (ha c) (hb c)
  exact app (app (app (app (app (app (app (app (app (app (app (app (app (app (app (app (app (app (app (app (app (app k1 l1) k2) l2) k3) l3) k4) l4) k5) l5)
    k6) l6) k7) l7) k8) l8) k9) l9) k10) l10) k11) l11) k12

theorem entrySection_scalar {a : Bytes} {s : Str} (h : IsEntrySection a s) : ∀ c ∈ s, scalar c := by
  obtain ⟨n1, s1, p1, p2, p3, lo, hi, u1, w1, g1, g2, g3, f1, f2, hs⟩ := h
  rw [hs]
  refine texts_scalar (by decide +kernel) ?_
  simp only [List.mem_cons, List.not_mem_nil, or_false, forall_eq_or_imp, forall_eq]
  exact ⟨guid_scalar _, guid_scalar _, guid_scalar _, nameText_scalar w1, guid_scalar _, guid_scalar _, timeText_scalar g1, timeText_scalar g2,
    timeText_scalar g3, timeText_scalar f1, timeText_scalar f2⟩

/-- C100: the report can be encoded in UTF-8, whatever the bytes of the names are. -/
theorem C100_encodable (file : Bytes) : ∃ b, utf8 (processMoveTable file).items.flatten = some b := by
  have hall : ∀ c ∈ (processMoveTable file).items.flatten, scalar c := by
    cases hh : getHeader file (sectorSize file none) with
    | error e => rw [(C100_report file).1 e hh]; intro c hc; cases hc
    | ok header =>
      obtain ⟨first, sections, h1, h2, h3, h4⟩ := (C100_report file).2 header hh
      rw [h1]
      intro c hc
      rw [List.flatten_cons, List.mem_append] at hc
      rcases hc with hc | hc
      · exact headerSection_scalar h2 c hc
      · obtain ⟨s, hs, hc⟩ := List.mem_flatten.1 hc
        obtain ⟨i, hi, e⟩ := List.getElem_of_mem hs
        have e1 : sections[i]? = some s := by rw [List.getElem?_eq_getElem hi, e]
        have e2 := List.getElem?_eq_getElem (l := (logEntries file (sectorSize file none)).items) (i := i) (by omega)
        exact entrySection_scalar (h4 i _ s e2 e1) c hc
  cases hu : utf8 (processMoveTable file).items.flatten with
  | some b => exact ⟨b, rfl⟩
  | none =>
    obtain ⟨c, hc, hn⟩ := (C92_encoding _).1 hu
    exact absurd (hall c hc) hn

/-- The hypotheses are met, and what the report says about a move. -/
example : (getHeader demoMoveTable (sectorSize demoMoveTable none)).isOk = true ∧ (processMoveTable demoMoveTable).items.length = 4 ∧
    (processMoveTable demoMoveTable).err = none := by decide +kernel

example : decodeString [0x57, 0x53, 0x2D, 0x31] = Str.ofString "WS-1" ∧ decodeString [0x8F, 0x8A] = [0x41F, 0x41A] ∧
    decodeString [0x80] = Str.ofString "\"\u0410\" (cp-866), \"€\" (windows-1252)" := by decide +kernel

example : guidText [0xB7, 0xEF, 0x0C, 0x94, 0x2A, 0x11, 0xE1, 0x11, 0xB7, 0x7A, 0, 0x0C, 0x29, 0xE6, 0x3F, 0x64] =
    Str.ofString "940cefb7-112a-11e1-b77a-000c29e63f64" ∧
    guidTimeText (guidTimestamp [0xB7, 0xEF, 0x0C, 0x94, 0x2A, 0x11, 0xE1, 0x11, 0xB7, 0x7A, 0, 0x0C, 0x29, 0xE6, 0x3F, 0x64]) =
      Str.ofString "2011-11-17 14:43:56.799992" := by decide +kernel

end Verif.Props
