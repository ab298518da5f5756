/-
C58: the checksum of a short name. C59: validation and parsing of short names. C62: dates and times.
-/
import Verif.Spec.FATNames
import Verif.Model.FAT.Names
namespace Verif.Props
open Verif.FAT Verif.Spec.FAT

/-! ### C58 -/

theorem checksumStep_eq {s : Nat} (hs : s < 2 ^ 8) (x : UInt8) : checksumStep s x = rotateAdd 7 s x := rotateAdd_eq 7 s x hs

theorem foldl_checksumStep (l : Bytes) {s : Nat} (hs : s < 2 ^ 8) : l.foldl checksumStep s = l.foldl (rotateAdd 7) s := by
  induction l generalizing s with
  | nil => rfl
  | cons x l ih =>
    rw [List.foldl_cons, List.foldl_cons, checksumStep_eq hs]
    exact ih (rotateAdd_lt 7 s x)

/-- C58: the checksum is the one of the FAT specification: for each of the 11 bytes, an 8-bit rotation to the
right and an addition. -/
theorem C58_value (name : Bytes) (h : name.length = 11) : buildChecksum name = .ok (rotateSum 7 name) := by
  unfold buildChecksum
  rw [if_neg (by omega), List.take_of_length_le (by omega), foldl_checksumStep name (by decide)]
  rfl

/-- C58: two names of 11 bytes that differ in exactly one position have different checksums. -/
theorem C58_detects (a b : Bytes) (i : Nat) (ha : a.length = 11) (hb : b.length = 11) (hi : i < 11)
    (hne : a[i]? ≠ b[i]?) (heq : ∀ j, j ≠ i → a[j]? = b[j]?) : buildChecksum a ≠ buildChecksum b := by
  rw [C58_value a ha, C58_value b hb]
  obtain ⟨pre, post, x, y, h1, h2, h3, h4, _⟩ := differ_at (by omega) (by omega) heq
  intro h
  have h := Except.ok.inj h
  rw [h1, h2] at h
  exact rotateSum_detects (by omega) pre post (fun hxy => hne (by rw [h3, h4, hxy])) h

/-- The names `README  TXT` and `README  TXS`. -/
example : buildChecksum ("README  TXT".toList.map (UInt8.ofNat ·.toNat)) = .ok 115 ∧
    buildChecksum ("README  TXS".toList.map (UInt8.ofNat ·.toNat)) = .ok 114 := by decide +kernel

/-! ### C59 -/

theorem mem_lowercase (c : UInt8) : c.toNat ∈ lowercase ↔ Lowercase c := by
  unfold lowercase Lowercase
  simp only [List.mem_cons, List.not_mem_nil, or_false]
  rw [show 'a'.toNat = 97 from rfl, show 'z'.toNat = 122 from rfl]
  omega

theorem mem_forbidden (c : UInt8) : c.toNat ∈ forbiddenCharacters ↔ Forbidden c := by
  unfold forbiddenCharacters Forbidden
  rw [show "\"*,./:;<=>?[\\]|".toList.map Char.toNat = [34, 42, 44, 46, 47, 58, 59, 60, 61, 62, 63, 91, 92, 93, 124] from rfl]
  simp only [List.mem_cons, List.not_mem_nil, or_false]
  omega

theorem toNat_eq (c : UInt8) (n : Nat) (hn : n < 256) : c.toNat = n ↔ c = UInt8.ofNat n := by
  constructor
  · intro h
    rw [← h]; exact (UInt8.ofNat_toNat).symm
  · intro h
    rw [h]
    simp
    omega

theorem validateFirst_iff (c : UInt8) : validateFirst c.toNat = true ↔ ValidFirst c := by
  unfold validateFirst ValidFirst
  have e1 := toNat_eq c 0x20 (by omega)
  have e2 := toNat_eq c 0x05 (by omega)
  have e3 := toNat_eq c 0x00 (by omega)
  simp only [mem_lowercase, mem_forbidden, e1, e2, e3]
  by_cases h1 : c = 0x20
  · simp [h1]
  · by_cases h2 : Lowercase c
    · simp [h1, h2]
    · by_cases h3 : c = 5
      · simp [h3]
      · by_cases h4 : c = 0
        · simp [h4]
        · by_cases h5 : Forbidden c <;> simp_all

theorem validateRest_iff (l : Bytes) : validateRest l = true ↔ ∀ c ∈ l, ¬ Lowercase c ∧ ¬ Forbidden c := by
  induction l with
  | nil => simp [validateRest]
  | cons c l ih =>
    unfold validateRest
    simp only [mem_lowercase, mem_forbidden]
    by_cases h1 : Lowercase c
    · simp [h1]
    · by_cases h2 : Forbidden c
      · simp [h1, h2]
      · simp [h1, h2, ih]

/-- C59: the names that are accepted. -/
theorem C59_accepted (name : Bytes) : validateShortName name = true ↔ Valid83 name := by
  unfold validateShortName Valid83
  have hd : (".          ".toList.map (UInt8.ofNat ·.toNat)) = dotName := by decide
  have hdd : ("..         ".toList.map (UInt8.ofNat ·.toNat)) = dotDotName := by decide
  rw [hd, hdd]
  by_cases h1 : name.length ≠ 11
  · rw [if_pos h1]
    constructor
    · intro h; cases h
    · rintro (h | h | ⟨f, r, h, hr, _⟩)
      · subst h; exact absurd rfl h1
      · subst h; exact absurd rfl h1
      · rw [h] at h1
        exact absurd (by simp [hr]) h1
  rw [if_neg h1]
  by_cases h2 : name ∈ [dotName, dotDotName]
  · rw [if_pos h2]
    simp only [List.mem_cons, List.not_mem_nil, or_false] at h2
    simp only [true_iff]
    rcases h2 with h2 | h2
    · exact Or.inl h2
    · exact Or.inr (Or.inl h2)
  rw [if_neg h2]
  simp only [List.mem_cons, List.not_mem_nil, or_false, not_or] at h2
  simp only [h2.1, h2.2, false_or]
  cases name with
  | nil => simp at h1
  | cons f r =>
    have hu : u8 (f :: r) 0 = f.toNat := rfl
    rw [hu, List.drop_one, List.tail_cons]
    by_cases h3 : validateFirst f.toNat = true
    · rw [if_neg (by simpa using h3), validateRest_iff]
      rw [validateFirst_iff] at h3
      constructor
      · intro h
        exact ⟨f, r, rfl, by simpa using h1, h3, h⟩
      · rintro ⟨f', r', h, _, _, h'⟩
        cases h
        exact h'
    · rw [if_pos h3]
      rw [validateFirst_iff] at h3
      constructor
      · intro h; cases h
      · rintro ⟨f', r', h, _, h', _⟩
        cases h
        exact absurd h' h3

theorem dropWhile_spec (l : Bytes) : ∃ k, l = List.replicate k 0x20 ++ l.dropWhile (· = 0x20) ∧ (l.dropWhile (· = 0x20)).head? ≠ some 0x20 := by
  induction l with
  | nil => exact ⟨0, rfl, by simp⟩
  | cons x l ih =>
    by_cases hx : x = 0x20
    · subst hx
      obtain ⟨k, h1, h2⟩ := ih
      refine ⟨k + 1, ?_, ?_⟩
      · rw [List.dropWhile_cons_of_pos (by simp), List.replicate_succ, List.cons_append, ← h1]
      · rw [List.dropWhile_cons_of_pos (by simp)]; exact h2
    · refine ⟨0, ?_, ?_⟩
      · rw [List.dropWhile_cons_of_neg (by simpa using hx)]; rfl
      · rw [List.dropWhile_cons_of_neg (by simpa using hx)]; simpa using hx

theorem rstrip_trimmed (b : Bytes) : IsTrimmed b (rstrip b) := by
  unfold rstrip IsTrimmed
  obtain ⟨k, h1, h2⟩ := dropWhile_spec b.reverse
  refine ⟨⟨k, ?_⟩, ?_⟩
  · have := congrArg List.reverse h1
    rw [List.reverse_reverse, List.reverse_append, List.reverse_replicate] at this
    exact this
  · rw [List.getLast?_reverse]
    exact h2

theorem trimmed_unique {b s t : Bytes} (hs : IsTrimmed b s) (ht : IsTrimmed b t) : s = t := by
  obtain ⟨⟨k, hk⟩, hs⟩ := hs
  obtain ⟨⟨m, hm⟩, ht⟩ := ht
  have aux : ∀ (s t : Bytes) (k m : Nat), k ≤ m → s ++ List.replicate k 0x20 = t ++ List.replicate m 0x20 → s.getLast? ≠ some 0x20 → s = t := by
    intro s t k m hkm he hl
    obtain ⟨d, rfl⟩ := Nat.exists_eq_add_of_le hkm
    have : s = t ++ List.replicate d 0x20 := by
      rw [Nat.add_comm k d, ← List.replicate_append_replicate, ← List.append_assoc] at he
      exact List.append_cancel_right he
    cases d with
    | zero => simpa using this
    | succ d =>
      exfalso
      apply hl
      rw [this, List.replicate_succ', ← List.append_assoc, List.getLast?_append]
      simp
  rcases Nat.le_total k m with h | h
  · exact aux s t k m h (hk.symm.trans hm) hs
  · exact (aux t s m k h (hm.symm.trans hk) ht).symm

theorem replaceFirst_eq (name : Bytes) (h : name ≠ []) : replaceFirst name = shown name := by
  cases name with
  | nil => exact absurd rfl h
  | cons f r =>
    have hu : u8 (f :: r) 0 = f.toNat := rfl
    unfold replaceFirst shown
    rw [hu]
    have e1 := toNat_eq f 0x00 (by omega)
    have e2 := toNat_eq f 0xE5 (by omega)
    have e3 := toNat_eq f 0x05 (by omega)
    simp only [e1, e2, e3]
    by_cases h1 : f = 0
    · simp [h1]
    · by_cases h2 : f = 229
      · simp [h2]
      · by_cases h3 : f = 5
        · simp [h3]
        · simp [h1, h2, h3]

theorem joinName_eq (bt et : Str) : (if et.length > 0 then some (bt ++ [0x2E] ++ et) else some bt) =
    some (if et = [] then bt else bt ++ ".".toList.map Char.toNat ++ et) := by
  cases et with
  | nil => rfl
  | cons x et => rfl

/-- C59: a parsed name: base, dot and extension, or only the base. -/
theorem C59_parsed (codec : Codec) (name : Bytes) (lowerBase lowerExtension : Bool) (s : Str) :
    parseShortName codec name lowerBase lowerExtension = some s ↔
      Valid83 name ∧ ∃ base extension, IsTrimmed ((shown name).take 8) base ∧ IsTrimmed ((shown name).drop 8) extension ∧
        ∃ baseText extensionText,
          baseText = (if lowerBase then codec.lower (codec.decode base) else codec.decode base) ∧
          extensionText = (if lowerExtension then codec.lower (codec.decode extension) else codec.decode extension) ∧
          s = if extensionText = [] then baseText else baseText ++ ".".toList.map Char.toNat ++ extensionText := by
  unfold parseShortName
  have hv := C59_accepted name
  by_cases h : validateShortName name = true
  · rw [if_neg (by simpa using h)]
    have hne : name ≠ [] := by
      intro he; subst he; simp [validateShortName] at h
    dsimp only
    rw [replaceFirst_eq name hne]
    constructor
    · intro hs
      refine ⟨hv.mp h, _, _, rstrip_trimmed _, rstrip_trimmed _, _, _, rfl, rfl, ?_⟩
      generalize (if lowerBase = true then codec.lower (codec.decode (rstrip (List.take 8 (shown name))))
        else codec.decode (rstrip (List.take 8 (shown name)))) = bt at hs ⊢
      generalize (if lowerExtension = true then codec.lower (codec.decode (rstrip (List.drop 8 (shown name))))
        else codec.decode (rstrip (List.drop 8 (shown name)))) = et at hs ⊢
      rw [joinName_eq] at hs
      exact (Option.some.inj hs).symm
    · rintro ⟨_, base, ext, hb, he, bt, et, hbt, het, hs⟩
      have hb' := trimmed_unique hb (rstrip_trimmed _)
      have he' := trimmed_unique he (rstrip_trimmed _)
      subst hb' he'
      rw [hs, ← hbt, ← het]
      exact joinName_eq bt et
  · rw [if_pos h]
    constructor
    · intro hs; cases hs
    · intro hs; exact absurd (hv.mpr hs.1) h

/-- C59: the raw form of a name, with the same parts. -/
theorem C59_raw (name s : Bytes) :
    parseShortNameRaw name = some s ↔
      Valid83 name ∧ ∃ base extension, IsTrimmed ((shown name).take 8) base ∧ IsTrimmed ((shown name).drop 8) extension ∧
        s = if extension = [] then base else base ++ [0x2E] ++ extension := by
  unfold parseShortNameRaw
  have hv := C59_accepted name
  by_cases h : validateShortName name = true
  · rw [if_neg (by simpa using h)]
    have hne : name ≠ [] := by
      intro he; subst he; simp [validateShortName] at h
    dsimp only
    rw [replaceFirst_eq name hne]
    constructor
    · intro hs
      refine ⟨hv.mp h, _, _, rstrip_trimmed _, rstrip_trimmed _, ?_⟩
      split at hs
      · rename_i hl
        cases hs
        rw [if_neg (by intro he; rw [he] at hl; simp at hl)]
      · rename_i hl
        cases hs
        rw [if_pos (by simpa using hl)]
    · rintro ⟨_, base, ext, hb, he, hs⟩
      have hb' := trimmed_unique hb (rstrip_trimmed _)
      have he' := trimmed_unique he (rstrip_trimmed _)
      subst hb' he'
      rw [hs]
      split
      · rename_i hl
        rw [if_neg (by intro he; rw [he] at hl; simp at hl)]
      · rename_i hl
        rw [if_pos (by simpa using hl)]
  · rw [if_pos h]
    constructor
    · intro hs; cases hs
    · intro hs; exact absurd (hv.mpr hs.1) h

theorem padded_trimmed {n : Nat} {b : Bytes} (h : b.getLast? ≠ some 0x20) : IsTrimmed (padded n b) b := ⟨⟨_, rfl⟩, h⟩

theorem padded_length {n : Nat} {b : Bytes} (h : b.length ≤ n) : (padded n b).length = n := by
  unfold padded; simp; omega

/-- C59: an ASCII name written as base and extension, each padded with spaces, is parsed back as
`base.extension`. -/
theorem C59_roundtrip (base extension : Bytes) (first : UInt8) (rest : Bytes) (hbase : base = first :: rest)
    (hl : base.length ≤ 8) (he : extension.length ≤ 3) (hs : base.getLast? ≠ some 0x20) (hse : extension.getLast? ≠ some 0x20)
    (hfirst : first ≠ 0x20 ∧ ¬ Lowercase first ∧ ¬ Forbidden first)
    (hascii : ∀ c ∈ base ++ extension, c.toNat < 128)
    (hc : ∀ c ∈ rest ++ extension, ¬ Lowercase c ∧ ¬ Forbidden c) :
    parseShortName ascii (padded 8 base ++ padded 3 extension) false false =
      some (if extension = [] then base.map UInt8.toNat else base.map UInt8.toNat ++ [0x2E] ++ extension.map UInt8.toNat) := by
  have hpl := padded_length hl
  have hpe := padded_length he
  have hname : padded 8 base ++ padded 3 extension = first :: (rest ++ List.replicate (8 - base.length) 0x20 ++ padded 3 extension) := by
    unfold padded; rw [hbase]; simp
  have hsp : ¬ Lowercase 0x20 ∧ ¬ Forbidden 0x20 := by decide
  have hshown : shown (padded 8 base ++ padded 3 extension) = padded 8 base ++ padded 3 extension := by
    rw [hname]
    unfold shown
    have h0 : first ≠ 0 := by intro h; subst h; exact absurd hfirst.2.2 (by decide)
    have h5 : first ≠ 5 := by intro h; subst h; exact absurd hfirst.2.2 (by decide)
    have he5 : first ≠ 0xE5 := by
      intro h; subst h
      exact absurd (hascii 0xE5 (by rw [hbase]; simp)) (by decide)
    dsimp only
    rw [if_neg (fun h => h.elim h0 he5), if_neg h5]
  have hdec : ∀ b : Bytes, (∀ c ∈ b, c.toNat < 128) → ascii.decode b = b.map UInt8.toNat := by
    intro b hb
    unfold ascii
    dsimp only
    apply List.map_congr_left
    intro c hc
    rw [if_pos (hb c hc)]
  rw [C59_parsed]
  refine ⟨Or.inr (Or.inr ⟨first, _, hname, ?_, ⟨hfirst.1, hfirst.2.1, Or.inl hfirst.2.2⟩, ?_⟩), base, extension, ?_, ?_, _, _, rfl, rfl, ?_⟩
  · have := congrArg List.length hname
    simp only [List.length_append, List.length_cons] at this
    rw [hpl, hpe] at this
    simp only [List.length_append]
    omega
  · intro c hc'
    simp only [padded, List.mem_append, List.mem_replicate] at hc'
    rcases hc' with (h | h) | (h | h)
    · exact hc c (by simp [h])
    · rw [h.2]; exact hsp
    · exact hc c (by simp [h])
    · rw [h.2]; exact hsp
  · rw [hshown, List.take_append_of_le_length (by omega), List.take_of_length_le (by omega)]
    exact padded_trimmed hs
  · rw [hshown, List.drop_append_of_le_length (by omega), List.drop_eq_nil_of_le (by omega)]
    exact padded_trimmed hse
  · simp only [Bool.false_eq_true, if_false]
    rw [hdec base (fun c h => hascii c (by simp [h])), hdec extension (fun c h => hascii c (by simp [h]))]
    by_cases hx : extension = []
    · rw [if_pos hx, if_pos (by rw [hx]; rfl)]
    · rw [if_neg hx, if_neg (by simpa using hx)]
      rfl

example : parseShortName ascii ("README  TXT".toList.map (UInt8.ofNat ·.toNat)) true false = some (Str.ofString "readme.TXT") ∧
    parseShortName ascii ("..         ".toList.map (UInt8.ofNat ·.toNat)) false false = some (Str.ofString "..") ∧
    parseShortName ascii (0xE5 :: "EADME     ".toList.map (UInt8.ofNat ·.toNat)) false false = some (Str.ofString "_EADME") ∧
    parseShortName ascii ("Readme  TXT".toList.map (UInt8.ofNat ·.toNat)) false false = none := by decide +kernel

/-! ### C62 -/

theorem daysInMonth_eq (year month : Nat) (h1 : 1 ≤ month) (h2 : month ≤ 12) : daysInMonth year month = monthLength year month := by
  have hm : month = 1 ∨ month = 2 ∨ month = 3 ∨ month = 4 ∨ month = 5 ∨ month = 6 ∨ month = 7 ∨ month = 8 ∨ month = 9 ∨ month = 10 ∨ month = 11 ∨ month = 12 := by
    omega
  have hleap : isLeap year = true ↔ (year % 4 = 0 ∧ year % 100 ≠ 0) ∨ year % 400 = 0 := by
    unfold isLeap
    rw [decide_eq_true_eq]
    omega
  rcases hm with rfl | rfl | rfl | rfl | rfl | rfl | rfl | rfl | rfl | rfl | rfl | rfl <;> try rfl
  unfold daysInMonth monthLength
  simp only [if_true, hleap]

theorem monthLength_le (year month : Nat) : monthLength year month ≤ 31 := by
  unfold monthLength
  split <;> try omega
  split <;> omega

/-- C62: a 16-bit value decodes to a date exactly when that is a date of the calendar and the value is its
packed form; every other value decodes to nothing. -/
theorem C62_date (value : Nat) (hv : value < 2 ^ 16) (d : Date) :
    decodeFATDate value = some d ↔ ValidDate d.year d.month d.day ∧ value = packDate d.year d.month d.day := by
  obtain ⟨year, month, day⟩ := d
  unfold decodeFATDate ValidDate packDate
  have e1 : value &&& 0x1F = value % 32 := and_mask value 5
  have e2 : (value >>> 5) &&& 0x0F = value / 32 % 16 := by
    rw [Nat.shiftRight_eq_div_pow]; exact and_mask _ 4
  have e3 : (value >>> 9) &&& 0x7F = value / 512 % 128 := by
    rw [Nat.shiftRight_eq_div_pow]; exact and_mask _ 7
  rw [e1, e2, e3]
  dsimp only
  by_cases h1 : value % 32 = 0
  · rw [if_pos h1]
    constructor
    · intro h; cases h
    · rintro ⟨⟨a, b, c, d, e, f⟩, g⟩
      have := monthLength_le year month
      omega
  rw [if_neg h1]
  by_cases h2 : value / 32 % 16 = 0 ∨ value / 32 % 16 > 12
  · rw [if_pos h2]
    constructor
    · intro h; cases h
    · rintro ⟨⟨a, b, c, d, e, f⟩, g⟩
      have := monthLength_le year month
      omega
  rw [if_neg h2, if_neg (by omega)]
  rw [daysInMonth_eq _ _ (by omega) (by omega)]
  by_cases h3 : value % 32 > monthLength (value / 512 % 128 + 1980) (value / 32 % 16)
  · rw [if_pos h3]
    constructor
    · intro h; cases h
    · rintro ⟨⟨a, b, c, d, e, f⟩, g⟩
      have := monthLength_le year month
      have hy : value / 512 % 128 + 1980 = year := by omega
      have hm : value / 32 % 16 = month := by omega
      rw [hy, hm] at h3
      omega
  · rw [if_neg h3]
    simp only [Option.some.injEq, Date.mk.injEq]
    constructor
    · rintro ⟨rfl, rfl, rfl⟩
      exact ⟨⟨by omega, by omega, by omega, by omega, by omega, by omega⟩, by omega⟩
    · rintro ⟨⟨a, b, c, d, e, f⟩, g⟩
      have := monthLength_le year month
      exact ⟨by omega, by omega, by omega⟩

/-- C62: the same for times. -/
theorem C62_time (value : Nat) (hv : value < 2 ^ 16) (t : Time) :
    decodeFATTime value = some t ↔ ValidTime t.hour t.minute t.second ∧ value = packTime t.hour t.minute t.second := by
  obtain ⟨hour, minute, second⟩ := t
  unfold decodeFATTime ValidTime packTime
  have e1 : value &&& 0x1F = value % 32 := and_mask value 5
  have e2 : (value >>> 5) &&& 0x3F = value / 32 % 64 := by
    rw [Nat.shiftRight_eq_div_pow]; exact and_mask _ 6
  have e3 : (value >>> 11) &&& 0x1F = value / 2048 % 32 := by
    rw [Nat.shiftRight_eq_div_pow]; exact and_mask _ 5
  rw [e1, e2, e3]
  dsimp only
  by_cases h1 : value % 32 > 29
  · rw [if_pos h1]
    constructor
    · intro h; cases h
    · rintro ⟨⟨a, b, c, d⟩, g⟩; omega
  rw [if_neg h1]
  by_cases h2 : value / 32 % 64 > 59
  · rw [if_pos h2]
    constructor
    · intro h; cases h
    · rintro ⟨⟨a, b, c, d⟩, g⟩; omega
  rw [if_neg h2]
  by_cases h3 : value / 2048 % 32 > 23
  · rw [if_pos h3]
    constructor
    · intro h; cases h
    · rintro ⟨⟨a, b, c, d⟩, g⟩; omega
  rw [if_neg h3]
  simp only [Option.some.injEq, Time.mk.injEq]
  constructor
  · rintro ⟨rfl, rfl, rfl⟩
    exact ⟨⟨by omega, by omega, by omega, by omega⟩, by omega⟩
  · rintro ⟨⟨a, b, c, d⟩, g⟩
    exact ⟨by omega, by omega, by omega⟩

/-- 29 February 2000 exists, 29 February 2100 does not; 23:59:58. -/
example : decodeFATDate (packDate 2000 2 29) = some ⟨2000, 2, 29⟩ ∧ decodeFATDate (packDate 2100 2 29) = none ∧
    decodeFATDate 0 = none ∧ decodeFATTime (packTime 23 59 58) = some ⟨23, 59, 58⟩ ∧ decodeFATTime 0xFFFF = none := by decide +kernel

end Verif.Props
