/-
Properties C05-C10: file record segments (dfir_ntfs/MFT.py:176-461).
-/
import Verif.Proof.FileRecordSegmentInit
namespace Verif.Props
open Verif.MFT Verif.Spec.FRS

/-- A small but complete file record: header, one resident `$STANDARD_INFORMATION`-like attribute
with the value 1..8, the end marker, and slack.  Used to show that the theorems are not vacuous. -/
def sampleRecord : Bytes :=
  [0x46, 0x49, 0x4C, 0x45, 48, 0, 3, 0, 0, 0, 0, 0, 0, 0, 0, 0, 1, 0, 1, 0, 56, 0, 1, 0, 96, 0, 0, 0, 0, 4, 0, 0,
   0, 0, 0, 0, 0, 0, 0, 0, 2, 0, 0, 0, 5, 0, 0, 0, 0, 0, 0, 0, 0, 0, 0, 0,
   0x10, 0, 0, 0, 32, 0, 0, 0, 0, 0, 0x18, 0, 0, 0, 0, 0, 8, 0, 0, 0, 0x18, 0, 0, 0, 1, 2, 3, 4, 5, 6, 7, 8,
   0xFF, 0xFF, 0xFF, 0xFF, 0, 0, 0, 0] ++ zeros 414 ++ [0xAA, 0xBB] ++ zeros 510 ++ [0xCC, 0xDD]

/-- The sample record as it is stored: `[7, 9]` is the update sequence number. -/
def storedRecord : Bytes :=
  [0x46, 0x49, 0x4C, 0x45, 48, 0, 3, 0, 0, 0, 0, 0, 0, 0, 0, 0, 1, 0, 1, 0, 56, 0, 1, 0, 96, 0, 0, 0, 0, 4, 0, 0,
   0, 0, 0, 0, 0, 0, 0, 0, 2, 0, 0, 0, 5, 0, 0, 0, 7, 9, 0xAA, 0xBB, 0xCC, 0xDD, 0, 0,
   0x10, 0, 0, 0, 32, 0, 0, 0, 0, 0, 0x18, 0, 0, 0, 0, 0, 8, 0, 0, 0, 0x18, 0, 0, 0, 1, 2, 3, 4, 5, 6, 7, 8,
   0xFF, 0xFF, 0xFF, 0xFF, 0, 0, 0, 0] ++ zeros 414 ++ [7, 9] ++ zeros 510 ++ [7, 9]

theorem sampleRecord_sane : SaneHeader sampleRecord := by
  constructor <;> decide +kernel

theorem protect_getElem? (orig : Bytes) (off : Nat) (x y : UInt8) (p : Nat) (hp : p < orig.length) :
    (protect orig off x y)[p]? = some (
      if p = off then x
      else if p = off + 1 then y
      else if off + 2 ≤ p ∧ p < off + 2 + 2 * (orig.length / 512) then
        orig.getD (512 * ((p - off - 2) / 2) + 510 + (p - off) % 2) 0
      else if p % 512 = 510 then x
      else if p % 512 = 511 then y
      else orig.getD p 0) := by
  simp [protect, hp]

theorem protect_length (orig : Bytes) (off : Nat) (x y : UInt8) : (protect orig off x y).length = orig.length := by
  simp [protect]

theorem protect_slice_header (orig : Bytes) (off : Nat) (x y : UInt8) (i j : Nat) (hj : j ≤ off) (hj' : j ≤ 510)
    (hl : 512 ≤ orig.length) : slice (protect orig off x y) i j = slice orig i j := by
  apply slice_congr
  intro p _ hp
  rw [protect_getElem? _ _ _ _ _ (by omega), if_neg (by omega), if_neg (by omega), if_neg (by omega), if_neg (by omega),
    if_neg (by omega)]
  rw [List.getD_eq_getElem?_getD, List.getElem?_eq_getElem (by omega)]; rfl

/-- C05: protecting any record with a sane header and parsing it recovers the original bytes (outside
of the update sequence array itself, which the protection fills in), for any update sequence
number.  The array must not overlap the protected last two bytes of the first sector. -/
theorem C05_usa_roundtrip (orig : Bytes) (x y : UInt8) (suggested : Option Nat) (h : SaneHeader orig)
    (hu : usaOffset orig + 2 * usaCount orig ≤ 510) :
    ∃ f, FileRecordSegment.init (protect orig (usaOffset orig) x y) true suggested = .ok f ∧
      f.data.length = orig.length ∧
      ∀ p, ¬ (usaOffset orig ≤ p ∧ p < usaOffset orig + 2 * usaCount orig) → f.data[p]? = orig[p]? := by
  have hb := h.bufferSize
  have ho := h.usaPlace
  have hc := h.usaCount
  have hsl : ∀ i j, j ≤ 42 → slice (protect orig (usaOffset orig) x y) i j = slice orig i j :=
    fun i j hj => protect_slice_header _ _ _ _ _ _ (by omega) (by omega) (by omega)
  have e1 : usaOffset (protect orig (usaOffset orig) x y) = usaOffset orig := by
    show leNat _ = leNat _; rw [hsl _ _ (by omega)]
  have e2 : usaCount (protect orig (usaOffset orig) x y) = usaCount orig := by
    show leNat _ = leNat _; rw [hsl _ _ (by omega)]
  have e3 : firstAttribute (protect orig (usaOffset orig) x y) = firstAttribute orig := by
    show leNat _ = leNat _; rw [hsl _ _ (by omega)]
  have e4 : usedSize (protect orig (usaOffset orig) x y) = usedSize orig := by
    show leNat _ = leNat _; rw [hsl _ _ (by omega)]
  have e5 : declaredSize (protect orig (usaOffset orig) x y) = declaredSize orig := by
    show leNat _ = leNat _; rw [hsl _ _ (by omega)]
  have hs : SaneHeader (protect orig (usaOffset orig) x y) := by
    constructor
    · rw [protect_length]; exact h.bufferSize
    · rw [hsl _ _ (by omega)]; exact h.signature
    · rw [e1]; exact h.usaPlace
    · rw [e2, protect_length]; exact h.usaCount
    · rw [e5]; exact h.size
    · rw [e5, protect_length]; exact h.sizeFits
    · rw [e4, e5]; exact h.used
    · rw [e3]; exact h.attrAligned
    · rw [e1, e2, e3]; exact h.attrAfterUsa
    · rw [e3, e5]; exact h.attrRoom
  have husn : slice (protect orig (usaOffset orig) x y) (usaOffset orig) (usaOffset orig + 2) = [x, y] := by
    apply List.ext_getElem?
    intro n
    rw [slice_getElem?]
    match n with
    | 0 => rw [if_pos (by omega), protect_getElem? _ _ _ _ _ (by omega), if_pos (by omega)]; rfl
    | 1 => rw [if_pos (by omega), protect_getElem? _ _ _ _ _ (by omega), if_neg (by omega), if_pos (by omega)]; rfl
    | n + 2 => rw [if_neg (by omega)]; simp
  have hnt : ∀ k, k < orig.length / 512 → ¬ Torn (protect orig (usaOffset orig) x y) k := by
    intro k hk ht
    apply ht
    rw [e1, husn]
    apply List.ext_getElem?
    intro n
    rw [slice_getElem?]
    match n with
    | 0 => rw [if_pos (by omega), protect_getElem? _ _ _ _ _ (by omega), if_neg (by omega), if_neg (by omega),
            if_neg (by omega), if_pos (by omega)]; rfl
    | 1 => rw [if_pos (by omega), protect_getElem? _ _ _ _ _ (by omega), if_neg (by omega), if_neg (by omega),
            if_neg (by omega), if_neg (by omega), if_pos (by omega)]; rfl
    | n + 2 => rw [if_neg (by omega)]; simp
  have hus := h.used
  have hsf := h.sizeFits
  obtain ⟨f, hf⟩ := init_total suggested hs (fun k hk => hnt k (by rw [e4] at hk; omega))
  refine ⟨f, hf, ?_, ?_⟩
  · rw [(init_ok hf).2.2.1.len, protect_length]
  · intro p hp
    obtain ⟨n, -, hn1, -, hn2, hdata⟩ := (init_ok hf).2.2.2.2.2.2.2 (by rw [e1, e2]; exact hu)
    rw [protect_length] at hn1 hn2
    have hn : n = orig.length / 512 := by
      apply Decidable.byContradiction
      intro hne
      exact hnt n (by omega) (hn2 (by omega))
    rw [hdata p, e1]
    by_cases hpl : p < orig.length
    · by_cases ht : 510 ≤ p % 512
      · rw [if_pos (by omega), protect_getElem? _ _ _ _ _ (by omega), if_neg (by omega), if_neg (by omega),
          if_pos (by omega)]
        have e : 512 * ((usaOffset orig + 2 * (p / 512 + 1) + (p % 512 - 510) - usaOffset orig - 2) / 2) + 510 +
            (usaOffset orig + 2 * (p / 512 + 1) + (p % 512 - 510) - usaOffset orig) % 2 = p := by omega
        rw [e, List.getD_eq_getElem?_getD, List.getElem?_eq_getElem hpl]; rfl
      · rw [if_neg (by omega), protect_getElem? _ _ _ _ _ hpl, if_neg (by omega), if_neg (by omega),
          if_neg (by omega), if_neg (by omega), if_neg (by omega)]
        rw [List.getD_eq_getElem?_getD, List.getElem?_eq_getElem hpl]; rfl
    · rw [if_neg (by omega), List.getElem?_eq_none (by rw [protect_length]; omega), List.getElem?_eq_none (by omega)]

/-- C05 is not vacuous, and the protection really changes the trailers. -/
example : SaneHeader sampleRecord ∧ usaOffset sampleRecord + 2 * usaCount sampleRecord ≤ 510 :=
  ⟨sampleRecord_sane, by decide +kernel⟩
example : slice (protect sampleRecord 48 7 9) 510 512 = [7, 9] ∧
    slice (protect sampleRecord 48 7 9) 48 54 = [7, 9, 0xAA, 0xBB, 0xCC, 0xDD] := by decide +kernel

/-- C05 for records written by anyone: in every accepted record the bytes of the used part are the
on-disk bytes, with the last two bytes of each sector taken from the update sequence array. -/
theorem C05_accepted_contents (buf : Bytes) (suggested : Option Nat) (f : FileRecordSegment)
    (h : FileRecordSegment.init buf true suggested = .ok f) (hu : usaOffset buf + 2 * usaCount buf ≤ 510) :
    f.data.length = buf.length ∧ ∀ p, p < usedSize buf →
      f.data[p]? = if 510 ≤ p % 512 then buf[usaOffset buf + 2 * (p / 512 + 1) + (p % 512 - 510)]? else buf[p]? := by
  refine ⟨(init_ok h).2.2.1.len, ?_⟩
  obtain ⟨n, hn, -, -, -, hdata⟩ := (init_ok h).2.2.2.2.2.2.2 hu
  intro p hp
  rw [hdata p]
  have := hn (p / 512) (by omega)
  by_cases ht : 510 ≤ p % 512
  · rw [if_pos ⟨ht, this⟩, if_pos ht]
  · rw [if_neg (by omega), if_neg ht]

/-- C06: a torn sector in the used part is always detected, and the exception is
`FileRecordSegmentException` (or its subclass for an unknown signature). -/
theorem C06_torn_rejected (buf : Bytes) (suggested : Option Nat) (k : Nat) (hk : 512 * k < usedSize buf)
    (ht : Torn buf k) :
    FileRecordSegment.init buf true suggested = .error .FileRecordSegmentException ∨
    FileRecordSegment.init buf true suggested = .error .FileRecordSegmentSignatureException := by
  cases h : FileRecordSegment.init buf true suggested with
  | ok f => exact absurd ht ((init_ok h).2.1 k hk)
  | error e =>
    rcases init_error h with rfl | ⟨rfl, -⟩
    · left; rfl
    · right; rfl

/-- C06 is not vacuous: the sample record as it is (not protected) is torn. -/
example : Torn sampleRecord 0 ∧ 512 * 0 < usedSize sampleRecord := by
  unfold Torn; decide +kernel

/-- C07: a buffer is accepted exactly when its header is sane and no used sector is torn. -/
theorem C07_accepts_iff (buf : Bytes) (suggested : Option Nat) :
    (∃ f, FileRecordSegment.init buf true suggested = .ok f) ↔
      SaneHeader buf ∧ ∀ k, 512 * k < usedSize buf → ¬ Torn buf k :=
  ⟨fun ⟨_, h⟩ => ⟨(init_ok h).1, (init_ok h).2.1⟩, fun ⟨h1, h2⟩ => init_total suggested h1 h2⟩

theorem saneHeader_data {buf : Bytes} {suggested : Option Nat} {f : FileRecordSegment}
    (h : FileRecordSegment.init buf true suggested = .ok f) : SaneHeader f.data := by
  obtain ⟨hs, -, hsame, -⟩ := init_ok h
  have e : ∀ i j, j ≤ 510 → slice f.data i j = slice buf i j := fun i j hj => hsame.slice hj
  have e1 : usaOffset f.data = usaOffset buf := by show leNat _ = leNat _; rw [e _ _ (by omega)]
  have e2 : usaCount f.data = usaCount buf := by show leNat _ = leNat _; rw [e _ _ (by omega)]
  have e3 : firstAttribute f.data = firstAttribute buf := by show leNat _ = leNat _; rw [e _ _ (by omega)]
  have e4 : usedSize f.data = usedSize buf := by show leNat _ = leNat _; rw [e _ _ (by omega)]
  have e5 : declaredSize f.data = declaredSize buf := by show leNat _ = leNat _; rw [e _ _ (by omega)]
  constructor
  · rw [hsame.len]; exact hs.bufferSize
  · rw [e _ _ (by omega)]; exact hs.signature
  · rw [e1]; exact hs.usaPlace
  · rw [e2, hsame.len]; exact hs.usaCount
  · rw [e5]; exact hs.size
  · rw [e5, hsame.len]; exact hs.sizeFits
  · rw [e4, e5]; exact hs.used
  · rw [e3]; exact hs.attrAligned
  · rw [e1, e2, e3]; exact hs.attrAfterUsa
  · rw [e3, e5]; exact hs.attrRoom

/-- C07: the header of an accepted record is sane, on the disk and in the parsed object. -/
theorem C07_accepted_sane (buf : Bytes) (suggested : Option Nat) (f : FileRecordSegment)
    (h : FileRecordSegment.init buf true suggested = .ok f) : SaneHeader buf ∧ SaneHeader f.data :=
  ⟨(init_ok h).1, saneHeader_data h⟩

/-- C07 is not vacuous: the protected sample record is accepted. -/
example : ∃ f, FileRecordSegment.init (protect sampleRecord 48 7 9) true none = .ok f := by
  obtain ⟨f, h, -⟩ := C05_usa_roundtrip sampleRecord 7 9 none sampleRecord_sane (by decide +kernel)
  exact ⟨f, h⟩

theorem firstFree_le {buf : Bytes} {suggested : Option Nat} {f : FileRecordSegment}
    (h : FileRecordSegment.init buf true suggested = .ok f) : firstFreeByteOffset f.data ≤ f.data.length := by
  have := saneHeader_data h
  have h1 := this.used
  have h2 := this.sizeFits
  exact Nat.le_trans h1.2 h2

/-- C08: listing the attributes of an accepted record terminates (it is a total function) and every
listed attribute is a well-formed attribute record stored at an 8-aligned place inside the used
part, the places being in increasing order and disjoint. -/
theorem C08_attributes_in_bounds (buf : Bytes) (suggested : Option Nat) (f : FileRecordSegment)
    (h : FileRecordSegment.init buf true suggested = .ok f) :
    (∀ it ∈ f.attributes.items,
      firstAttribute f.data ≤ it.pos ∧ 8 ∣ it.pos ∧ 8 ∣ it.len ∧ 0 < it.len ∧ it.pos + it.len ≤ usedSize f.data ∧
      StoredAttribute (slice f.data it.pos (it.pos + it.len)) it.attr) ∧
    f.attributes.items.Pairwise (fun a b => a.pos + a.len ≤ b.pos) ∧
    (f.attributes.err = none ∨ f.attributes.err = some .AttributeException ∨
      f.attributes.err = some .MappingPairsException) := by
  obtain ⟨h1, h2, h3, -⟩ := attributesLoop_sound f.data (firstAttribute f.data) (firstFree_le h)
    (saneHeader_data h).attrAligned _ rfl
  refine ⟨?_, h2, h3⟩
  intro it hit
  obtain ⟨a, b, c, d, e, -, g⟩ := h1 it hit
  exact ⟨a, b, c, by omega, e, g⟩

/-- The contents of an attribute: its name (if any) and its value or mapping pairs. -/
def attrParts : AttributeRecord → List Bytes
  | .resident _ name value => name.toList ++ [value]
  | .nonresident _ name pairs _ _ _ _ => name.toList ++ [pairs]

theorem slice_infix (b : Bytes) (i j : Nat) : slice b i j <:+: b := by
  unfold slice
  exact (List.take_prefix _ _).isInfix.trans (List.drop_suffix _ _).isInfix

/-- C08 (second half): the name, and the value or the mapping pairs, are stored inside the region of
their own attribute. -/
theorem C08_parts_inside (buf : Bytes) (suggested : Option Nat) (f : FileRecordSegment)
    (h : FileRecordSegment.init buf true suggested = .ok f) (it : LocatedAttribute) (hit : it ∈ f.attributes.items)
    (part : Bytes) (hp : part ∈ attrParts it.attr) : part <:+: slice f.data it.pos (it.pos + it.len) := by
  have hs := ((C08_attributes_in_bounds buf suggested f h).1 it hit).2.2.2.2.2
  have name_infix : ∀ (r : Bytes) (hdr : Nat) (name : Option Bytes), NameStored r hdr name →
      part ∈ name.toList → part <:+: r := by
    intro r hdr name hn hm
    cases name with
    | none => simp at hm
    | some nm =>
      simp only [Option.toList, List.mem_singleton] at hm
      subst hm
      rw [hn.2.2.2.2]
      exact slice_infix _ _ _
  cases hattr : it.attr with
  | resident t name value =>
    rw [hattr] at hs hp
    simp only [attrParts, List.mem_append, List.mem_singleton] at hp
    obtain ⟨-, -, -, -, hn, -, -, -, -, hv⟩ := hs
    rcases hp with hp | rfl
    · exact name_infix _ _ _ hn hp
    · rw [hv]; exact slice_infix _ _ _
  | nonresident t name pairs lo hi fs runs =>
    rw [hattr] at hs hp
    simp only [attrParts, List.mem_append, List.mem_singleton] at hp
    obtain ⟨-, -, -, -, hn, -, -, -, -, -, -, hv, -⟩ := hs
    rcases hp with hp | rfl
    · exact name_infix _ _ _ hn hp
    · rw [hv]; exact slice_infix _ _ _

/-- C08 and C09 are not vacuous: the stored sample record is accepted and lists its attribute. -/
example : (match FileRecordSegment.init storedRecord true none with
    | .ok f => some f.attributes
    | .error _ => none) = some ⟨[⟨56, 32, .resident 0x10 none [1, 2, 3, 4, 5, 6, 7, 8]⟩], none, some 92⟩ := by
  decide +kernel

/-- C09: when the record holds, from the first attribute offset on, a sequence of well-formed
attribute records followed by the end marker, exactly those attributes are listed, in order, no
exception is raised, and the real size of the record ends right after the end marker. -/
theorem C09_attributes_complete (buf : Bytes) (suggested : Option Nat) (f : FileRecordSegment)
    (h : FileRecordSegment.init buf true suggested = .ok f)
    (recs : List (Bytes × AttributeRecord)) (trailing : Bytes)
    (hstored : ∀ p ∈ recs, StoredAttribute p.1 p.2 ∧ slice p.1 0 4 ≠ [0xFF, 0xFF, 0xFF, 0xFF])
    (hdata : f.data.drop (firstAttribute f.data) = (recs.map (·.1)).flatten ++ ([0xFF, 0xFF, 0xFF, 0xFF] ++ trailing))
    (hfit : firstAttribute f.data + (recs.map (·.1)).flatten.length < usedSize f.data) :
    f.attributes.items.map (·.attr) = recs.map (·.2) ∧ f.attributes.err = none ∧
      f.attributes.realSize = some (firstAttribute f.data + (recs.map (·.1)).flatten.length + 4) := by
  generalize hrest : (recs.map (·.1)).flatten = rest at *
  have hl := congrArg List.length hdata
  simp only [List.length_drop, List.length_append, List.length_cons, List.length_nil] at hl
  have h1 : slice f.data (firstAttribute f.data) (firstAttribute f.data + rest.length) = rest := by
    unfold slice; rw [hdata, Nat.add_sub_cancel_left, List.take_left]
  have h2 : slice f.data (firstAttribute f.data + rest.length) (firstAttribute f.data + rest.length + 4)
      = [0xFF, 0xFF, 0xFF, 0xFF] := by
    unfold slice
    rw [← List.drop_drop, hdata, Nat.add_sub_cancel_left, List.drop_left]; rfl
  have h3 : u32 f.data (firstAttribute f.data + rest.length) = 0xFFFFFFFF := by
    unfold u32; rw [h2]; decide
  obtain ⟨items, hi1, -, hi3⟩ := attributesLoop_complete f.data (firstFree_le h) recs (firstAttribute f.data)
    (fun p hp => (hstored p hp).1) (by
      intro p hp hc
      apply (hstored p hp).2
      have hpl := StoredAttribute_length (hstored p hp).1
      exact leNat_inj (by rw [slice_length_of_le (by omega)]; simp) (by rw [hc]; decide))
    (by rw [hrest]; exact Nat.le_of_lt hfit) (by rw [hrest]; exact h1)
  rw [hrest] at hi3
  have hend := attributesLoop_end (data := f.data) (pos := firstAttribute f.data + rest.length) hfit
    (by omega) h3
  have := hi3 _ hend
  have hf : f.attributes = ⟨items ++ [], none, some (firstAttribute f.data + rest.length + 4)⟩ := this
  rw [hf]
  simp [hi1]

/-- C09 for records without an end marker: attributes that fill the used part exactly. -/
theorem C09_attributes_complete_no_marker (buf : Bytes) (suggested : Option Nat) (f : FileRecordSegment)
    (h : FileRecordSegment.init buf true suggested = .ok f)
    (recs : List (Bytes × AttributeRecord))
    (hstored : ∀ p ∈ recs, StoredAttribute p.1 p.2 ∧ slice p.1 0 4 ≠ [0xFF, 0xFF, 0xFF, 0xFF])
    (hdata : slice f.data (firstAttribute f.data) (usedSize f.data) = (recs.map (·.1)).flatten)
    (hfit : firstAttribute f.data + (recs.map (·.1)).flatten.length = usedSize f.data) :
    f.attributes.items.map (·.attr) = recs.map (·.2) ∧ f.attributes.err = none ∧ f.attributes.realSize = none := by
  generalize hrest : (recs.map (·.1)).flatten = rest at *
  obtain ⟨items, hi1, -, hi3⟩ := attributesLoop_complete f.data (firstFree_le h) recs (firstAttribute f.data)
    (fun p hp => (hstored p hp).1) (by
      intro p hp hc
      apply (hstored p hp).2
      have hpl := StoredAttribute_length (hstored p hp).1
      exact leNat_inj (by rw [slice_length_of_le (by omega)]; simp) (by rw [hc]; decide))
    (by rw [hrest]; exact Nat.le_of_eq hfit) (by rw [hrest, hfit]; exact hdata)
  rw [hrest] at hi3
  have hend : attributesLoop f.data (firstAttribute f.data + rest.length) = ⟨[], none, none⟩ := by
    unfold attributesLoop
    rw [if_neg (by rw [hfit]; exact Nat.lt_irrefl _)]
  have hf : f.attributes = ⟨items ++ [], none, none⟩ := hi3 _ hend
  rw [hf]
  simp [hi1]

/-- C09's hypotheses are met by the (decoded) sample record. -/
example : sampleRecord.drop (firstAttribute sampleRecord) =
    [0x10, 0, 0, 0, 32, 0, 0, 0, 0, 0, 0x18, 0, 0, 0, 0, 0, 8, 0, 0, 0, 0x18, 0, 0, 0, 1, 2, 3, 4, 5, 6, 7, 8] ++
      ([0xFF, 0xFF, 0xFF, 0xFF] ++ sampleRecord.drop 92) ∧
    StoredAttribute [0x10, 0, 0, 0, 32, 0, 0, 0, 0, 0, 0x18, 0, 0, 0, 0, 0, 8, 0, 0, 0, 0x18, 0, 0, 0, 1, 2, 3, 4, 5, 6, 7, 8]
      (.resident 0x10 none [1, 2, 3, 4, 5, 6, 7, 8]) := by
  refine ⟨by decide +kernel, ?_⟩
  simp only [StoredAttribute, NameStored, headEnd]
  decide +kernel

/-- C10: whenever slack is returned, it is what remains of the record after the end marker that
follows the last attribute; so the part before it and the slack partition the record. -/
theorem C10_slack_partition (buf : Bytes) (suggested : Option Nat) (f : FileRecordSegment)
    (h : FileRecordSegment.init buf true suggested = .ok f) (s : Bytes) (hs : f.slack = .ok (some s)) :
    let stop := firstAttribute f.data + (f.attributes.items.map (·.len)).sum
    f.attributes.err = none ∧ stop < usedSize f.data ∧ slice f.data stop (stop + 4) = [0xFF, 0xFF, 0xFF, 0xFF] ∧
    f.data = f.data.take (stop + 4) ++ s ∧ s.length + stop + 4 = f.data.length := by
  obtain ⟨-, -, -, h4, -⟩ := attributesLoop_sound f.data (firstAttribute f.data) (firstFree_le h)
    (saneHeader_data h).attrAligned _ rfl
  unfold FileRecordSegment.slack at hs
  split at hs
  · cases hs
  split at hs
  · cases hs
  rename_i n hn
  cases hs
  obtain ⟨a, rfl, c, d, e⟩ := h4 n hn
  refine ⟨a, d, u32_le_slice_length c e, ?_, ?_⟩
  · exact (List.take_append_drop _ _).symm
  · show (f.data.drop (firstAttribute f.data + (f.attributes.items.map (·.len)).sum + 4)).length + (firstAttribute f.data + (f.attributes.items.map (·.len)).sum) + 4 = _
    rw [List.length_drop]
    have c : firstAttribute f.data + (f.attributes.items.map (·.len)).sum + 4 ≤ f.data.length := c
    omega

/-- C10: there is no slack exactly when the listing ends without meeting an end marker before the
used size; and the listing exception propagates. -/
theorem C10_no_slack (buf : Bytes) (suggested : Option Nat) (f : FileRecordSegment)
    (h : FileRecordSegment.init buf true suggested = .ok f) :
    (f.slack = .ok none → usedSize f.data ≤ firstAttribute f.data + (f.attributes.items.map (·.len)).sum) ∧
    (∀ e, f.slack = .error e ↔ f.attributes.err = some e) := by
  obtain ⟨-, -, -, -, h5, -⟩ := attributesLoop_sound f.data (firstAttribute f.data) (firstFree_le h)
    (saneHeader_data h).attrAligned _ rfl
  unfold FileRecordSegment.slack
  constructor
  · intro hs
    split at hs
    · cases hs
    rename_i he
    split at hs
    · rename_i hr
      exact h5 hr he
    · cases hs
  · intro e
    split
    · rename_i e' he
      rw [he]
      constructor <;> intro hh <;> cases hh <;> rfl
    · rename_i he
      rw [he]
      split <;> constructor <;> intro hh <;> cases hh

example : (match FileRecordSegment.init storedRecord true none with
    | .ok f => some (f.slack)
    | .error _ => none) = some (.ok (some (sampleRecord.drop 92))) := by decide +kernel

end Verif.Props
