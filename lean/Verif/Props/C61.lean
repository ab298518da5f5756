/-
C61: what is listed of a directory.
-/
import Verif.Spec.FATDirectory
import Verif.Props.C58_C59
namespace Verif.Props
open Verif.FAT Verif.Spec.FAT

/-- No value of the NT byte is without an entry in the table of paddings. -/
theorem parseNTByte_ok (v : Nat) (hv : v < 256) : ∃ nt, parseNTByte v = .ok nt ∧
    (nt.lowercaseBase = true ↔ v / 8 % 2 = 1) ∧ (nt.lowercaseExtension = true ↔ v / 16 % 2 = 1) ∧ (nt.encrypted = true ↔ v % 2 = 1) := by
  have h : ∀ v : Fin 256, (match parseNTByte v.val with
      | .ok nt => decide ((nt.lowercaseBase = true ↔ v.val / 8 % 2 = 1) ∧ (nt.lowercaseExtension = true ↔ v.val / 16 % 2 = 1) ∧ (nt.encrypted = true ↔ v.val % 2 = 1))
      | .error _ => false) = true := by decide +kernel
  have := h ⟨v, hv⟩
  dsimp only at this
  split at this
  · rename_i nt hnt
    exact ⟨nt, hnt, of_decide_eq_true this⟩
  · cases this

theorem attr_mask (x : Nat) : x &&& 0x3F = x % 64 := and_mask x 6

theorem attr_kind (x : Nat) : x % 64 &&& 0x18 = 8 * (x / 8 % 4) := by
  have h : ∀ v : Fin 64, v.val &&& 0x18 = 8 * (v.val / 8 % 4) := by decide +kernel
  have h1 := h ⟨x % 64, Nat.mod_lt _ (by omega)⟩
  dsimp only at h1
  rw [h1]
  omega

theorem isVolumeLabel_iff (slot : Bytes) (hl : ¬ isLongSlot slot) : isVolumeLabel (u8 slot 11 &&& 0x3F) = true ↔ kind slot = 1 := by
  unfold isVolumeLabel kind
  unfold isLongSlot at hl
  rw [attr_mask, attr_mask, attr_kind, show u8 slot 11 % 64 % 64 = u8 slot 11 % 64 by omega, if_neg hl, decide_eq_true_eq]
  omega

theorem directoryFlag_eq (slot : Bytes) : directoryFlag (u8 slot 11 &&& 0x3F) =
    if kind slot = 3 then none else some (decide (kind slot = 2)) := by
  unfold directoryFlag kind
  rw [attr_mask, attr_kind]
  have : u8 slot 11 / 8 % 4 < 4 := Nat.mod_lt _ (by omega)
  generalize u8 slot 11 / 8 % 4 = k at this ⊢
  have hk : k = 0 ∨ k = 1 ∨ k = 2 ∨ k = 3 := by omega
  rcases hk with rfl | rfl | rfl | rfl <;> decide

theorem rawName_length {slot : Bytes} (hs : slot.length = 32) : (rawName slot).length = 11 := by
  unfold rawName; rw [slice_length]; omega

theorem labelName_iff (codec : Codec) (raw : Bytes) (hne : raw ≠ []) :
    labelName codec raw = if ∀ c ∈ shown raw, c ≠ 0 ∧ c ≠ 10 ∧ c ≠ 13 then some (codec.decode (rstrip (shown raw)), rstrip (shown raw)) else none := by
  unfold labelName labelRaw
  rw [replaceFirst_eq raw hne]
  have hiff : ((shown raw).any fun c => decide (c.toNat ∈ forbiddenCharactersLabel)) = true ↔ ¬ ∀ c ∈ shown raw, c ≠ 0 ∧ c ≠ 10 ∧ c ≠ 13 := by
    rw [List.any_eq_true]
    simp only [decide_eq_true_eq, forbiddenCharactersLabel, List.mem_cons, List.not_mem_nil, or_false]
    constructor
    · rintro ⟨c, hc, h⟩ hall
      have := hall c hc
      have e1 := toNat_eq c 0 (by omega)
      have e2 := toNat_eq c 10 (by omega)
      have e3 := toNat_eq c 13 (by omega)
      rw [e1, e2, e3] at h
      rcases h with h | h | h
      · exact this.1 h
      · exact this.2.1 h
      · exact this.2.2 h
    · intro h
      apply Classical.byContradiction
      intro hn
      apply h
      intro c hc
      have e1 := toNat_eq c 0 (by omega)
      have e2 := toNat_eq c 10 (by omega)
      have e3 := toNat_eq c 13 (by omega)
      refine ⟨fun h => hn ⟨c, hc, Or.inl (e1.mpr h)⟩, fun h => hn ⟨c, hc, Or.inr (Or.inl (e2.mpr h))⟩, fun h => hn ⟨c, hc, Or.inr (Or.inr (e3.mpr h))⟩⟩
  by_cases h : ∀ c ∈ shown raw, c ≠ 0 ∧ c ≠ 10 ∧ c ≠ 13
  · rw [if_pos h, if_neg (fun h' => hiff.mp h' h)]
  · rw [if_neg h, if_pos (hiff.mpr h)]

theorem shortName_some {codec : Codec} {raw : Bytes} {nt : NTByte} {n : Str × Bytes} (h : shortName codec raw nt = some n) :
    Valid83 raw ∧ NameText codec raw (nt.lowercaseBase = true) (nt.lowercaseExtension = true) n.1 ∧ parseShortNameRaw raw = some n.2 := by
  unfold shortName at h
  split at h
  · rename_i name norm hn hr
    cases h
    obtain ⟨hv, base, ext, hb, he, bt, et, hbt, het, hs⟩ := (C59_parsed ..).mp hn
    refine ⟨hv, ⟨base, ext, hb, he, bt, et, ?_, ?_, ?_, ?_, ?_, ?_⟩, hr⟩
    · intro h; rw [hbt, if_pos h]
    · intro h; rw [hbt, if_neg h]
    · intro h; rw [het, if_pos h]
    · intro h; rw [het, if_neg h]
    · intro h; dsimp only; rw [hs, if_pos h]
    · intro h; dsimp only; rw [hs, if_neg h]; rfl
  · cases h

theorem parseShortNameRaw_some {raw s : Bytes} (h : parseShortNameRaw raw = some s) : NameBytes raw s := by
  unfold parseShortNameRaw at h
  split at h
  · cases h
  · next hv =>
    have hv : validateShortName raw = true := by simpa using hv
    have hne : raw ≠ [] := by
      have := (C59_accepted raw).mp hv
      rintro rfl
      rcases this with h | h | ⟨_, _, h, _⟩
      · exact absurd h (by decide)
      · exact absurd h (by decide)
      · cases h
    dsimp only at h
    rw [replaceFirst_eq raw hne] at h
    refine ⟨_, _, rstrip_trimmed _, rstrip_trimmed _, ?_, ?_⟩
    · intro he
      rw [he, if_neg (by simp)] at h
      cases h; rfl
    · intro he
      rw [if_pos (List.length_pos_iff.mpr he)] at h
      cases h; rfl

theorem shortName_none {codec : Codec} {raw : Bytes} {nt : NTByte} (h : shortName codec raw nt = none) : ¬ Valid83 raw := by
  intro hv
  have := (C59_accepted raw).mpr hv
  have h1 : ∃ s, parseShortName codec raw nt.lowercaseBase nt.lowercaseExtension = some s := by
    unfold parseShortName
    rw [if_neg (by simpa using this)]
    dsimp only
    split <;> split <;> exact ⟨_, rfl⟩
  have h2 : ∃ s, parseShortNameRaw raw = some s := by
    unfold parseShortNameRaw
    rw [if_neg (by simpa using this)]
    dsimp only
    split <;> exact ⟨_, rfl⟩
  obtain ⟨s, hs⟩ := h1
  obtain ⟨t, ht⟩ := h2
  unfold shortName at h
  rw [hs, ht] at h
  cases h

theorem dateTime_some (dv tv inc : Nat) (hd : dv < 2 ^ 16) (ht : tv < 2 ^ 16) (hi : inc ≤ 199) (d : Date) (t : Time) (μs : Nat) :
    dateTime (decodeFATDate dv) (decodeFATTime tv) inc = some ⟨d, t, μs⟩ ↔
      ValidDate d.year d.month d.day ∧ dv = packDate d.year d.month d.day ∧
      ∃ second, ValidTime t.hour t.minute second ∧ tv = packTime t.hour t.minute second ∧
        1000000 * t.second + μs = 1000000 * second + 10000 * inc ∧ μs < 1000000 := by
  unfold dateTime
  constructor
  · intro h
    split at h
    · rename_i d' t' hd' ht'
      have h := Option.some.inj h
      simp only [DateTime.mk.injEq] at h
      obtain ⟨h1, h2, h3⟩ := h
      subst h1 h2 h3
      have h4 := (C62_date dv hd d').mp hd'
      have h5 := (C62_time tv ht t').mp ht'
      refine ⟨h4.1, h4.2, t'.second, h5.1, h5.2, ?_, by omega⟩
      dsimp only
      omega
    · cases h
  · rintro ⟨h1, h2, s, h3, h4, h5, h6⟩
    rw [(C62_date dv hd d).mpr ⟨h1, h2⟩, (C62_time tv ht ⟨t.hour, t.minute, s⟩).mpr ⟨h3, h4⟩]
    dsimp only
    obtain ⟨hh, mm, ss⟩ := t
    simp only at h5 ⊢
    rw [show s + inc / 100 = ss by omega, show inc % 100 * 10000 = μs by omega]

theorem describes (codec : Codec) (isFat32 : Bool) (slot : Bytes) (n : Str × Bytes) (ln : Option Str) (dir : Bool) (nt : NTByte) (foundNull : Bool)
    (afterNull : Prop) (hf : foundNull = true ↔ afterNull ∨ u8 slot 0 = 0)
    (hdir : dir = decide (kind slot = 2))
    (hnt : (nt.lowercaseBase = true ↔ u8 slot 12 / 8 % 2 = 1) ∧ (nt.lowercaseExtension = true ↔ u8 slot 12 / 16 % 2 = 1) ∧ (nt.encrypted = true ↔ u8 slot 12 % 2 = 1))
    (hname : kind slot ≠ 1 → NameText codec (rawName slot) (nt.lowercaseBase = true) (nt.lowercaseExtension = true) n.1)
    (hlabel : kind slot = 1 → ∃ text, IsTrimmed (shown (rawName slot)) text ∧ n.1 = codec.decode text)
    (hnameBytes : kind slot ≠ 1 → NameBytes (rawName slot) n.2) (hlabelBytes : kind slot = 1 → IsTrimmed (shown (rawName slot)) n.2) :
    Describes codec isFat32 slot afterNull (fileEntry isFat32 slot n ln dir nt foundNull) := by
  have hdel : decide (u8 slot 0 ∈ [0, 0xE5]) = true ↔ u8 slot 0 = 0 ∨ u8 slot 0 = 0xE5 := by simp
  have b16 : ∀ i, u16 slot i < 2 ^ 16 := fun i => u16_lt slot i
  rw [hnt.1, hnt.2.1] at hname
  unfold fileEntry
  constructor
  · dsimp only
    by_cases h : u8 slot 0 = 0 ∨ u8 slot 0 = 0xE5
    · rw [if_neg (fun h' => by rw [hdel.mpr h] at h'; cases h'.2), hdel.mpr h]; simp [h]
    · have : decide (u8 slot 0 ∈ [0, 0xE5]) = false := by
        cases hd : decide (u8 slot 0 ∈ [0, 0xE5]) with
        | false => rfl
        | true => exact absurd (hdel.mp hd) h
      rw [this]
      simp only [h, iff_false]
      split
      · intro h; cases h
      · intro h; cases h
  · dsimp only
    by_cases h : u8 slot 0 = 0 ∨ u8 slot 0 = 0xE5
    · rw [if_neg (fun h' => by rw [hdel.mpr h] at h'; cases h'.2), hdel.mpr h]; simp [h]
    · have : decide (u8 slot 0 ∈ [0, 0xE5]) = false := by
        cases hd : decide (u8 slot 0 ∈ [0, 0xE5]) with
        | false => rfl
        | true => exact absurd (hdel.mp hd) h
      rw [this]
      by_cases ha : afterNull
      · rw [if_pos ⟨hf.mpr (Or.inl ha), rfl⟩]; simp [h, ha]
      · rw [if_neg (fun h' => (hf.mp h'.1).elim ha (fun h'' => h (Or.inl h'')))]; simp [ha]
  · dsimp only
    by_cases h : u8 slot 0 = 0 ∨ u8 slot 0 = 0xE5
    · rw [if_neg (fun h' => by rw [hdel.mpr h] at h'; cases h'.2), hdel.mpr h]; simp [h]
    · have : decide (u8 slot 0 ∈ [0, 0xE5]) = false := by
        cases hd : decide (u8 slot 0 ∈ [0, 0xE5]) with
        | false => rfl
        | true => exact absurd (hdel.mp hd) h
      rw [this]
      by_cases ha : afterNull
      · rw [if_pos ⟨hf.mpr (Or.inl ha), rfl⟩]; simp [ha]
      · rw [if_neg (fun h' => (hf.mp h'.1).elim ha (fun h'' => h (Or.inl h'')))]; simp [h, ha]
  · dsimp only; rw [hdir, decide_eq_true_eq]
  · exact hname
  · exact hlabel
  · exact hnameBytes
  · exact hlabelBytes
  · rfl
  · exact attr_mask _
  · dsimp only
    rw [shiftLeft_or_of_lt (b16 26)]
    split <;> omega
  · exact hnt.2.2
  · intro d
    exact C62_date _ (b16 18) d
  · intro d t μs
    dsimp only
    rw [dateTime_some _ _ _ (b16 24) (b16 22) (by omega)]
    constructor
    · rintro ⟨h1, h2, s, h3, h4, h5, h6⟩
      have : s = t.second ∧ μs = 0 := by omega
      rw [this.1] at h3 h4
      exact ⟨h1, h2, h3, h4, this.2⟩
    · rintro ⟨h1, h2, h3, h4, h5⟩
      exact ⟨h1, h2, t.second, h3, h4, by omega, by omega⟩
  · intro d t μs
    dsimp only
    rw [show (if u8 slot 13 > 199 then 0 else u8 slot 13) = (if u8 slot 13 ≤ 199 then u8 slot 13 else 0) by
      by_cases h : u8 slot 13 ≤ 199
      · rw [if_pos h, if_neg (by omega)]
      · rw [if_neg h, if_pos (by omega)]]
    exact dateTime_some _ _ _ (b16 16) (b16 14) (by split <;> omega) d t μs

theorem filesIn_append (a b : List Item) : filesIn (a ++ b) = filesIn a ++ filesIn b := by
  unfold filesIn; rw [List.filterMap_append]

/-- The checksum that a long name before the slot has to have. -/
def slotChecksum (slot : Bytes) : Nat := rotateSum 7 (if kind slot = 1 then shown (rawName slot) else rawName slot)

/-- The files of the results of one slot. -/
theorem shortSlot_files (codec : Codec) (isFat32 : Bool) (slot : Bytes) (hs : slot.length = 32) (st : Scan) (afterNull : Prop)
    (hf : st.foundNull = true ↔ afterNull ∨ u8 slot 0 = 0) (hl : ¬ isLongSlot slot) :
    ∃ items, shortSlot codec isFat32 slot st = .ok (items, { st with entities := [], prev := none }) ∧
      ((¬ Listed slot ∧ filesIn items = []) ∨ (Listed slot ∧ ∃ e pre, items = pre ++ [.file e] ∧ filesIn pre = [] ∧ Describes codec isFat32 slot afterNull e ∧
        e.longName = if (u8 slot 0 = 0 ∨ u8 slot 0 = 0xE5) ∨ belongs (slotChecksum slot) st.prev = true then buildLongName st.entities else none)) := by
  have hraw : rawName slot ≠ [] := by
    intro h; have := rawName_length hs; rw [h] at this; cases this
  have hnoFile : ∀ (c : Bool) (o : Option Str) (es : List Bytes),
      filesIn ((if c = true then [] else flushStash es) ++ (if o.isSome then [.orphan o] else [])) = [] := by
    intro c o es
    unfold flushStash
    cases c <;> cases o <;> by_cases h : es.length > 0 <;> simp [filesIn, h]
  obtain ⟨nt, hnt, hnt'⟩ := parseNTByte_ok (u8 slot 12) (u8_lt slot 12)
  unfold shortSlot
  rw [hnt]
  dsimp only
  have hlab := isVolumeLabel_iff slot hl
  have hchk : buildChecksum (if isVolumeLabel (u8 slot 11 &&& 0x3F) = true then labelRaw (slice slot 0 11) else slice slot 0 11) = .ok (slotChecksum slot) := by
    unfold slotChecksum
    by_cases hk : kind slot = 1
    · rw [if_pos (hlab.mpr hk), if_pos hk]
      unfold labelRaw
      rw [show slice slot 0 11 = rawName slot from rfl, replaceFirst_eq _ hraw]
      apply C58_value
      have := rawName_length hs
      revert this
      cases rawName slot with
      | nil => intro h; cases h
      | cons a l => intro h; exact h
    · rw [if_neg (fun h => hk (hlab.mp h)), if_neg hk]
      exact C58_value _ (rawName_length hs)
  rw [hchk]
  dsimp only
  generalize belongs (slotChecksum slot) st.prev = matching
  generalize hm : decide (decide (u8 slot 0 ∈ [0x00, 0xE5]) = true ∨ matching = true) = b
  have hb : (decide (u8 slot 0 ∈ [0x00, 0xE5]) = true ∨ matching = true) ↔ b = true :=
    ⟨fun h => by rw [← hm]; exact decide_eq_true h, fun h => by rw [← hm] at h; exact of_decide_eq_true h⟩
  simp only [hb]
  have hln : (if (u8 slot 0 = 0 ∨ u8 slot 0 = 0xE5) ∨ matching = true then buildLongName st.entities else none) = (if b = true then buildLongName st.entities else none) := by
    have : ((u8 slot 0 = 0 ∨ u8 slot 0 = 0xE5) ∨ matching = true) ↔ b = true := by rw [← hb]; simp
    by_cases h : b = true
    · rw [if_pos h, if_pos (this.mpr h)]
    · rw [if_neg h, if_neg (fun h' => h (this.mp h'))]
  rw [hln]
  generalize (if b = true then buildLongName st.entities else none) = ln
  have hgood : ∀ n, (if isVolumeLabel (u8 slot 11 &&& 0x3F) = true then labelName codec (slice slot 0 11) else shortName codec (slice slot 0 11) nt) = some n →
      GoodName slot ∧ (kind slot ≠ 1 → NameText codec (rawName slot) (nt.lowercaseBase = true) (nt.lowercaseExtension = true) n.1) ∧
      (kind slot = 1 → ∃ text, IsTrimmed (shown (rawName slot)) text ∧ n.1 = codec.decode text) ∧
      (kind slot ≠ 1 → NameBytes (rawName slot) n.2) ∧ (kind slot = 1 → IsTrimmed (shown (rawName slot)) n.2) := by
    intro n hn
    unfold GoodName
    by_cases hk : kind slot = 1
    · rw [if_pos (hlab.mpr hk), show slice slot 0 11 = rawName slot from rfl, labelName_iff _ _ hraw] at hn
      split at hn
      · rename_i hg
        cases hn
        rw [if_pos hk]
        exact ⟨hg, fun h => absurd hk h, fun _ => ⟨_, rstrip_trimmed _, rfl⟩, fun h => absurd hk h, fun _ => rstrip_trimmed _⟩
      · cases hn
    · rw [if_neg (fun h => hk (hlab.mp h))] at hn
      rw [if_neg hk]
      obtain ⟨h1, h2, h3⟩ := shortName_some hn
      exact ⟨h1, fun _ => h2, fun h => absurd h hk, fun _ => parseShortNameRaw_some h3, fun h => absurd h hk⟩
  have hbad : (if isVolumeLabel (u8 slot 11 &&& 0x3F) = true then labelName codec (slice slot 0 11) else shortName codec (slice slot 0 11) nt) = none →
      ¬ GoodName slot := by
    intro hn
    unfold GoodName
    by_cases hk : kind slot = 1
    · rw [if_pos (hlab.mpr hk), show slice slot 0 11 = rawName slot from rfl, labelName_iff _ _ hraw] at hn
      rw [if_pos hk]
      split at hn
      · cases hn
      · rename_i hg; exact hg
    · rw [if_neg (fun h => hk (hlab.mp h))] at hn
      rw [if_neg hk]
      exact shortName_none hn
  cases hn : (if isVolumeLabel (u8 slot 11 &&& 0x3F) = true then labelName codec (slice slot 0 11) else shortName codec (slice slot 0 11) nt) with
  | none =>
    exact ⟨_, rfl, Or.inl ⟨fun h => hbad hn h.2.2.1, hnoFile ..⟩⟩
  | some n =>
    obtain ⟨hg, hnm, hlb, hnb, hbb⟩ := hgood n hn
    dsimp only
    rw [directoryFlag_eq]
    by_cases hk : kind slot = 3
    · rw [if_pos hk]
      exact ⟨_, rfl, Or.inl ⟨fun h => h.2.1 hk, hnoFile ..⟩⟩
    · rw [if_neg hk]
      dsimp only
      by_cases hw : slot.all (· = 0xE5) = true ∨ slot.all (· = 0x00) = true
      · rw [if_pos hw]
        refine ⟨_, rfl, Or.inl ⟨?_, hnoFile ..⟩⟩
        rintro ⟨_, _, _, ⟨x, hx, hx'⟩, y, hy, hy'⟩
        rcases hw with hw | hw
        · exact hx' (by simpa using List.all_eq_true.mp hw x hx)
        · exact hy' (by simpa using List.all_eq_true.mp hw y hy)
      · rw [if_neg hw]
        refine ⟨_, rfl, Or.inr ⟨⟨hl, hk, hg, ?_, ?_⟩, _, _, rfl, ?_, describes codec isFat32 slot n ln _ nt st.foundNull afterNull hf rfl hnt' hnm hlb hnb hbb, rfl⟩⟩
        · apply Classical.byContradiction
          intro hno
          apply hw
          left
          rw [List.all_eq_true]
          intro x hx
          rw [decide_eq_true_eq]
          exact Classical.byContradiction fun h => hno ⟨x, hx, h⟩
        · apply Classical.byContradiction
          intro hno
          apply hw
          right
          rw [List.all_eq_true]
          intro x hx
          rw [decide_eq_true_eq]
          exact Classical.byContradiction fun h => hno ⟨x, hx, h⟩
        · unfold flushStash
          cases b <;> by_cases h : st.entities.length > 0 <;> simp [filesIn, h]

theorem longSlot_files (slot : Bytes) (st : Scan) : filesIn (longSlot slot st).1 = [] ∧ (longSlot slot st).2.foundNull = st.foundNull := by
  unfold longSlot flushStash
  by_cases h : coherent (u8 slot 0) (u8 slot 13) st.prev = true
  · simp [h, filesIn]
  · by_cases h1 : coherent (u8 slot 0) (u8 slot 13) none = true <;> by_cases h2 : st.entities.length > 0 <;> simp [h, h1, h2, filesIn]

/-- One round of the loop never fails; its files are those of the slot. -/
theorem scanSlot_files (codec : Codec) (isFat32 shortOnly : Bool) (slot : Bytes) (hs : slot.length = 32) (st : Scan) (afterNull : Prop)
    (hf : st.foundNull = true ↔ afterNull) :
    ∃ items st', scanSlot codec isFat32 shortOnly slot st = .ok (items, st') ∧ (st'.foundNull = true ↔ afterNull ∨ u8 slot 0 = 0) ∧
      ((¬ Listed slot ∧ filesIn items = []) ∨ (Listed slot ∧ ∃ e, filesIn items = [e] ∧ Describes codec isFat32 slot afterNull e)) := by
  unfold scanSlot
  dsimp only
  generalize hst : (if u8 slot 0 = 0x00 then { st with foundNull := true } else st) = st1
  have hf1 : st1.foundNull = true ↔ afterNull ∨ u8 slot 0 = 0 := by
    rw [← hst]
    by_cases h : u8 slot 0 = 0
    · rw [if_pos h]; simp [h]
    · rw [if_neg h, hf]; simp [h]
  have hattr : u8 slot 11 &&& 0x3F &&& 0x3F = u8 slot 11 % 64 := by rw [attr_mask, attr_mask]; omega
  rw [hattr]
  by_cases hl : u8 slot 11 % 64 = 0x0F
  · rw [if_pos hl]
    have hnl : ¬ Listed slot := fun h => h.1 hl
    split
    · exact ⟨_, _, rfl, hf1, Or.inl ⟨hnl, rfl⟩⟩
    · split
      · exact ⟨_, _, rfl, hf1, Or.inl ⟨hnl, rfl⟩⟩
      · have := longSlot_files slot st1
        exact ⟨(longSlot slot st1).1, (longSlot slot st1).2, rfl, by rw [this.2]; exact hf1, Or.inl ⟨hnl, this.1⟩⟩
  · rw [if_neg hl]
    obtain ⟨items, h1, h2⟩ := shortSlot_files codec isFat32 slot hs st1 afterNull hf1 hl
    refine ⟨items, _, h1, hf1, ?_⟩
    rcases h2 with h2 | ⟨h2, e, pre, h3, h4, h5, _⟩
    · exact Or.inl h2
    · refine Or.inr ⟨h2, e, ?_, h5⟩
      rw [h3, filesIn_append, h4]
      rfl

theorem scanSlots_files (codec : Codec) (isFat32 shortOnly : Bool) (l : List Bytes) (hl : ∀ s ∈ l, s.length = 32) (st : Scan) (afterNull : Prop)
    (hf : st.foundNull = true ↔ afterNull) :
    (scanSlots codec isFat32 shortOnly l st).err = none ∧
    FilesOf codec isFat32 afterNull l (filesIn (scanSlots codec isFat32 shortOnly l st).items) := by
  induction l generalizing st afterNull with
  | nil =>
    unfold scanSlots
    refine ⟨rfl, ?_⟩
    have : filesIn (flushStash st.entities) = [] := by unfold flushStash; by_cases h : st.entities.length > 0 <;> simp [h, filesIn]
    dsimp only
    rw [this]
    exact .nil _
  | cons slot l ih =>
    obtain ⟨items, st', h1, h2, h3⟩ := scanSlot_files codec isFat32 shortOnly slot (hl slot (by simp)) st afterNull hf
    unfold scanSlots
    rw [h1]
    dsimp only
    have ih := ih (fun s hs => hl s (by simp [hs])) st' _ h2
    rw [Gen.append]
    dsimp only
    refine ⟨ih.1, ?_⟩
    rw [filesIn_append]
    rcases h3 with ⟨h3, h4⟩ | ⟨h3, e, h4, h5⟩
    · rw [h4]
      exact .skip h3 ih.2
    · rw [h4]
      exact .list h3 h5 ih.2

theorem slots_length {buf : Bytes} (h : buf.length % 32 = 0) : ∀ s ∈ slots buf, s.length = 32 := by
  intro s hs
  unfold slots at hs
  rw [List.mem_map] at hs
  obtain ⟨i, hi, rfl⟩ := hs
  rw [List.mem_range] at hi
  rw [slice_length_of_le (by omega)]
  omega

/-- C61: listing a directory never fails, and its files are exactly those of the listed slots, one for each and
in their order; the fields of a file, whether it is deleted among them, are those of the slot. -/
theorem C61_files (codec : Codec) (isFat32 shortOnly : Bool) (buf : Bytes) (h : 512 ≤ buf.length) (h' : buf.length % 512 = 0) :
    (listDirectory codec isFat32 shortOnly buf).err = none ∧
    FilesOf codec isFat32 False ((List.range (buf.length / 32)).map fun i => slice buf (32 * i) (32 * i + 32))
      (filesIn (listDirectory codec isFat32 shortOnly buf).items) := by
  unfold listDirectory openDirectory
  rw [if_neg (by omega)]
  dsimp only
  unfold entries
  exact scanSlots_files codec isFat32 shortOnly (slots buf) (slots_length (by omega)) _ False (by simp)

/-- C61: so there are at most as many files as slots. -/
theorem C61_count (codec : Codec) (isFat32 shortOnly : Bool) (buf : Bytes) (h : 512 ≤ buf.length) (h' : buf.length % 512 = 0) :
    (filesIn (listDirectory codec isFat32 shortOnly buf).items).length ≤ buf.length / 32 := by
  have aux : ∀ {p l fs}, FilesOf codec isFat32 p l fs → fs.length ≤ l.length := by
    intro p l fs hfs
    induction hfs with
    | nil => simp
    | skip _ _ ih => simp; omega
    | list _ _ _ ih => simp; omega
  have := aux (C61_files codec isFat32 shortOnly buf h h').2
  simpa using this

/-- A buffer of another length is refused. -/
theorem C61_refused (codec : Codec) (isFat32 shortOnly : Bool) (buf : Bytes) (h : buf.length < 512 ∨ buf.length % 512 ≠ 0) :
    listDirectory codec isFat32 shortOnly buf = .fail .DirectoryEntriesException := by
  unfold listDirectory openDirectory
  rw [if_pos h]

/-- A file that was deleted, then an empty slot and one more file. -/
def sampleDirectory : Bytes :=
  0xE5 :: "EADME  TXT".toList.map (UInt8.ofNat ·.toNat) ++ [0x20, 0] ++ zeros 13 ++ natLE 2 5 ++ natLE 4 700 ++
  zeros 32 ++
  "DIR        ".toList.map (UInt8.ofNat ·.toNat) ++ [0x10, 8] ++ zeros 13 ++ natLE 2 6 ++ natLE 4 0 ++ zeros 416

example : (filesIn (listDirectory ascii false false sampleDirectory).items).map (fun e => (e.shortName, e.isDeleted, e.isDirectory, e.firstCluster, e.size)) =
    [(Str.ofString "_EADME.TXT", some true, false, 5, 700), (Str.ofString "dir", none, true, 6, 0)] ∧
    sampleDirectory.length = 512 := by decide +kernel

end Verif.Props
