/-
Property C128: what is printed about an attribute.
-/
import Verif.Props.C101
import Verif.Props.C100
import Verif.Props.C121
import Verif.Props.C51_C52
import Verif.Model.PrintInformation
import Verif.Spec.Printed
namespace Verif.Props.Printed
open Verif.Attributes Verif.Spec.LogReport Verif.Spec.Printed Verif.Scripts Verif.Proof.LogReport

/-! ### Values -/

theorem hexDigits_eq (n : Nat) : Spec.Printed.hexDigits n = (USN.hexDigits n).reverse := by
  fun_induction Spec.Printed.hexDigits n with
  | case1 n h => rw [USN.hexDigits, if_pos h, List.reverse_singleton, hexDigit_eq h]
  | case2 n h ih => rw [USN.hexDigits, if_neg h, List.reverse_cons, ← ih, hexDigit_eq (by omega)]

theorem hex_eq (n : Nat) : USN.pyHex n = hex n := by unfold USN.pyHex hex line; rw [hexDigits_eq]

theorem hex_inj {a b : Nat} (h : hex a = hex b) : a = b := by
  rw [← hex_eq, ← hex_eq] at h
  exact pyHex_inj h

theorem at_ok {v : Bytes} {i n : Nat} (h : i + n ≤ v.length) : unpackLE n (slice v i (i + n)) = .ok (field v i n) :=
  unpackLE_of_length (by rw [slice_length]; omega)

theorem at_error {v : Bytes} {i n : Nat} (h : ¬ i + n ≤ v.length) (hn : 0 < n) : unpackLE n (slice v i (i + n)) = .error .StructError := by
  unfold unpackLE
  rw [if_neg (by rw [slice_length]; omega)]

theorem moment_is (o : Nat) : IsMoment (Print.moment epoch1601 (decodeFiletime o)) (Spec.MoveReport.filetimeMoment o) := by
  unfold Spec.MoveReport.filetimeMoment
  cases h : decodeFiletime o with
  | none => rfl
  | some u =>
    show Spec.MemTable.IsText (strDatetime (epoch1601 + u)) _
    rw [← epochs.1]
    refine strDatetime_text ?_
    unfold decodeFiletime at h
    split at h
    · next hlt =>
      cases h
      unfold microsecondsFrom1601 at hlt
      unfold epoch1601
      omega
    · cases h

theorem time_ok {v : Bytes} {i : Nat} (h : i + 8 ≤ v.length) : timeField v i = .ok (decodeFiletime (field v i 8)) := by
  unfold timeField
  rw [at_ok h]

theorem optional_eq (v : Bytes) (i n : Nat) (hn : 0 < n) : Print.optional (optionalField n v i) = ifThere v i n := by
  unfold optionalField ifThere
  by_cases h : i + n ≤ v.length
  · rw [if_pos (by rw [slice_length]; omega), if_pos h, Print.optional, decimal_eq]; rfl
  · rw [if_neg (by rw [slice_length]; omega), if_neg h]; rfl

theorem field_lt' (b : Bytes) (i n : Nat) : field b i n < 256 ^ n := by
  have := Proof.MoveReport.leNat_lt16 (b := slice b i (i + n)) (2 * n) (by rw [slice_length]; omega)
  rw [show (16 : Nat) ^ (2 * n) = 256 ^ n by rw [Nat.pow_mul]] at this
  exact this

/-! ### Lines -/

theorem shown_ok (label : String) (s : Str) (rest : Gen Str) : Print.shown label (.ok s) rest = ⟨line label s :: rest.items, rest.err⟩ := rfl

theorem title_eq (s : String) (rest : Gen Str) : Print.title s rest = ⟨Str.ofString s :: rest.items, rest.err⟩ := rfl

/-- Printing stopped with an exception, before the lines of another printing were all there. -/
def Cut (g g' : Gen Str) : Prop := g.err = some .StructError ∧ g.items <+: g'.items

theorem cut_title {g g' : Gen Str} (s : String) (h : Cut g g') : Cut (Print.title s g) (Print.title s g') :=
  ⟨h.1, List.cons_prefix_cons.2 ⟨rfl, h.2⟩⟩

theorem cut_shown {x x' : Except Exc Str} {g g' : Gen Str} (label : String)
    (h : x = .error .StructError ∨ ((∃ s, x = .ok s ∧ x' = .ok s) ∧ Cut g g')) : Cut (Print.shown label x g) (Print.shown label x' g') := by
  rcases h with rfl | ⟨⟨s, rfl, rfl⟩, h⟩
  · exact ⟨rfl, List.nil_prefix⟩
  · exact ⟨h.1, List.cons_prefix_cons.2 ⟨rfl, h.2⟩⟩

theorem slice_prefix {v : Bytes} (w : Bytes) {i n : Nat} (h : i + n ≤ v.length) : slice (v ++ w) i (i + n) = slice v i (i + n) := by
  unfold slice
  rw [List.drop_append_of_le_length (by omega), List.take_append_of_le_length (by rw [List.length_drop]; omega)]

/-- A value of a shorter attribute: it is missing, or the same. -/
def Kept {α : Type} (x x' : Except Exc α) : Prop := x = .error .StructError ∨ ∃ a, x = .ok a ∧ x' = .ok a

theorem kept_unpack (v w : Bytes) (i n : Nat) (hn : 0 < n) : Kept (unpackLE n (slice v i (i + n))) (unpackLE n (slice (v ++ w) i (i + n))) := by
  by_cases h : i + n ≤ v.length
  · exact .inr ⟨_, at_ok h, by rw [slice_prefix w h]; exact at_ok h⟩
  · exact .inl (at_error h hn)

theorem kept_map {α β : Type} {x x' : Except Exc α} (f : α → β) (h : Kept x x') : Kept (x.map f) (x'.map f) := by
  rcases h with rfl | ⟨a, rfl, rfl⟩
  · exact .inl rfl
  · exact .inr ⟨_, rfl, rfl⟩

theorem kept_time (v w : Bytes) (i : Nat) : Kept (timeField v i) (timeField (v ++ w) i) := by
  unfold timeField
  rcases kept_unpack v w i 8 (by decide) with h | ⟨a, h, h'⟩
  · rw [h]; exact .inl rfl
  · rw [h, h']; exact .inr ⟨_, rfl, rfl⟩

theorem kept_signed (v w : Bytes) (i : Nat) : Kept (Attributes.signedField v i) (Attributes.signedField (v ++ w) i) := by
  unfold Attributes.signedField
  by_cases h : i + 8 ≤ v.length
  · rw [slice_prefix w h, if_pos (by rw [slice_length]; omega)]; exact .inr ⟨_, rfl, rfl⟩
  · rw [if_neg (by rw [slice_length]; omega)]; exact .inl rfl

theorem kept_pair {x x' y y' : Except Exc Str} (h : Kept x x') (h' : Kept y y') : Kept (Print.pair x y) (Print.pair x' y') := by
  rcases h with rfl | ⟨a, rfl, rfl⟩
  · exact .inl rfl
  · rcases h' with rfl | ⟨b, rfl, rfl⟩
    · exact .inl rfl
    · exact .inr ⟨_, rfl, rfl⟩

theorem cut_step {x x' : Except Exc Str} {g g' : Gen Str} (label : String) (h : Kept x x') (hg : Cut g g') :
    Cut (Print.shown label x g) (Print.shown label x' g') := by
  rcases h with h | h
  · exact cut_shown label (.inl h)
  · exact cut_shown label (.inr ⟨h, hg⟩)

theorem cut_end {x x' : Except Exc Str} {g g' : Gen Str} (label : String) (h : x = .error .StructError) :
    Cut (Print.shown label x g) (Print.shown label x' g') := cut_shown label (.inl h)

/-! ### `$STANDARD_INFORMATION` -/

/-- C128: the lines printed for `$STANDARD_INFORMATION`. -/
theorem C128_standard_information (v : Bytes) (h : 48 ≤ v.length) :
    (Print.standardInformation v).err = none ∧ IsStandardInformation v (Print.standardInformation v).items := by
  unfold Print.standardInformation siCtime siMtime siAtime siEtime siFileAttributes siVersionNumber siMaximumVersions siCaseSensitive siStorageReserveId
    siKnownFolder siClassId siExtraFlags siOwnerId siSecurityId siQuotaCharged siUsn
  rw [time_ok (i := 0) (by omega), time_ok (i := 8) (by omega), time_ok (i := 16) (by omega), time_ok (i := 24) (by omega),
    at_ok (i := 32) (n := 4) (by omega), at_ok (i := 36) (n := 4) (by omega), at_ok (i := 40) (n := 4) (by omega), at_ok (i := 44) (n := 4) (by omega),
    optional_eq _ _ _ (by decide), optional_eq _ _ _ (by decide), optional_eq _ _ _ (by decide), optional_eq _ _ _ (by decide)]
  simp only [Except.map, Print.pair, shown_ok, title_eq, decimal_eq, hex_eq]
  refine ⟨rfl, _, _, _, _, moment_is _, moment_is _, moment_is _, moment_is _, ?_⟩
  have e1 : Print.truth (decide (field v 40 4 &&& 1 > 0)) = yes (field v 40 4 % 2 = 1) := by
    unfold Print.truth yes
    rw [show (1 : Nat) = 2 ^ 1 - 1 from rfl, Nat.and_two_pow_sub_one_eq_mod]
    by_cases hc : field v 40 4 % 2 = 1
    · simp [hc]
    · simp [show field v 40 4 % 2 = 0 by omega]
  have e2 : (field v 40 4 >>> 8) &&& 0xF = field v 40 4 / 256 % 16 := by
    rw [Nat.shiftRight_eq_div_pow, show (0xF : Nat) = 2 ^ 4 - 1 from rfl, Nat.and_two_pow_sub_one_eq_mod]
  have e3 : (field v 40 4 &&& 0xE) >>> 1 = field v 40 4 / 2 % 8 := by
    rw [Nat.shiftRight_and_distrib, Nat.shiftRight_eq_div_pow, show (0xE >>> 1 : Nat) = 2 ^ 3 - 1 from rfl, Nat.and_two_pow_sub_one_eq_mod]
  rw [e1, e2, e3]
  simp only [two, three, List.append_assoc]
  rfl

/-- C128: a value of fewer than 48 bytes: the printing ends with `struct.error`, and the lines before that are those of the longer value. -/
theorem C128_standard_information_short (v w : Bytes) (h : v.length < 48) :
    (Print.standardInformation v).err = some .StructError ∧ (Print.standardInformation v).items <+: (Print.standardInformation (v ++ w)).items := by
  unfold Print.standardInformation siCtime siMtime siAtime siEtime siFileAttributes siVersionNumber siMaximumVersions siCaseSensitive siStorageReserveId
    siKnownFolder siClassId siExtraFlags
  refine cut_title _ (cut_step _ (kept_map _ (kept_time _ _ _)) (cut_step _ (kept_map _ (kept_time _ _ _)) (cut_step _ (kept_map _ (kept_time _ _ _))
    (cut_step _ (kept_map _ (kept_time _ _ _)) (cut_step _ (kept_map _ (kept_unpack _ _ 32 4 (by decide))) (cut_step _ (kept_pair
    (kept_map _ (kept_unpack _ _ 40 4 (by decide))) (kept_map _ (kept_unpack _ _ 36 4 (by decide)))) (cut_step _
    (kept_map _ (kept_map _ (kept_unpack _ _ 40 4 (by decide)))) (cut_step _ (kept_map _ (kept_map _ (kept_unpack _ _ 40 4 (by decide))))
    (cut_step _ (kept_map _ (kept_map _ (kept_unpack _ _ 40 4 (by decide)))) (cut_end _ ?_))))))))))
  rw [at_error (i := 44) (n := 4) (by omega) (by decide)]
  rfl

/-! ### `$FILE_NAME` -/

theorem signed_ok {v : Bytes} {i : Nat} (h : i + 8 ≤ v.length) : Attributes.signedField v i = .ok (Spec.Printed.signedField v i) := by
  unfold Attributes.signedField Spec.Printed.signedField
  have hl : (slice v i (i + 8)).length = 8 := by rw [slice_length]; omega
  rw [if_pos hl]
  unfold leInt
  rw [hl]
  show Except.ok (if 2 * field v i 8 < 256 ^ 8 then (field v i 8 : Int) else (field v i 8 : Int) - (256 : Int) ^ 8) = _
  by_cases hc : field v i 8 < 2 ^ 63
  · rw [if_pos hc, if_pos (by omega)]
  · rw [if_neg hc, if_neg (by omega)]; rfl

theorem slice8 (v : Bytes) (i j : Nat) : slice (v.drop 8) i j = slice v (8 + i) (8 + j) := (slice_drop v 8 i j).symm

/-- C128: the lines printed for `$FILE_NAME`. -/
theorem C128_file_name (v : Bytes) (h : 66 ≤ v.length) : (Print.fileName v).err = none ∧ IsFileName v (Print.fileName v).items := by
  unfold Print.fileName fileNameParent diCtime diMtime diAtime diEtime diAllocatedLength diFileSize diFileAttributes diPackedEaSize
    diUnpackedEaSizeDifference fileNameFlags fileNameName fileNameInformation timeField Attributes.signedField
  simp only [slice8]
  have s1 := signed_ok (v := v) (i := 40) (by omega)
  have s2 := signed_ok (v := v) (i := 48) (by omega)
  unfold Attributes.signedField at s1 s2
  simp only [Nat.add_zero, Nat.reduceAdd] at s1 s2 ⊢
  rw [at_ok (i := 0) (n := 8) (by omega), at_ok (i := 8) (n := 8) (by omega), at_ok (i := 16) (n := 8) (by omega), at_ok (i := 24) (n := 8) (by omega),
    at_ok (i := 32) (n := 8) (by omega), s1, s2, at_ok (i := 56) (n := 4) (by omega), at_ok (i := 60) (n := 2) (by omega),
    at_ok (i := 62) (n := 2) (by omega), at_ok (i := 64) (n := 1) (by omega), at_ok (i := 65) (n := 1) (by omega)]
  simp only [Except.map, Print.pair, shown_ok, title_eq, decimal_eq, signedDecimal_eq, hex_eq]
  exact ⟨rfl, _, _, _, _, moment_is _, moment_is _, moment_is _, moment_is _, rfl⟩

theorem kept_drop {v : Bytes} (w : Bytes) (i n : Nat) (hn : 0 < n) :
    Kept (unpackLE n (slice (v.drop 8) i (i + n))) (unpackLE n (slice ((v ++ w).drop 8) i (i + n))) := by
  rw [slice8, slice8, ← Nat.add_assoc]
  exact kept_unpack v w (8 + i) n hn

theorem kept_time_drop (v w : Bytes) (i : Nat) : Kept (timeField (v.drop 8) i) (timeField ((v ++ w).drop 8) i) := by
  unfold timeField
  rcases kept_drop (v := v) w i 8 (by decide) with h | ⟨a, h, h'⟩
  · rw [h]; exact .inl rfl
  · rw [h, h']; exact .inr ⟨_, rfl, rfl⟩

theorem kept_signed_drop (v w : Bytes) (i : Nat) : Kept (Attributes.signedField (v.drop 8) i) (Attributes.signedField ((v ++ w).drop 8) i) := by
  have := kept_signed v w (8 + i)
  unfold Attributes.signedField at this ⊢
  rw [slice8, slice8]
  exact this

/-- C128: a value of fewer than 66 bytes. -/
theorem C128_file_name_short (v w : Bytes) (h : v.length < 66) :
    (Print.fileName v).err = some .StructError ∧ (Print.fileName v).items <+: (Print.fileName (v ++ w)).items := by
  unfold Print.fileName fileNameParent diCtime diMtime diAtime diEtime diAllocatedLength diFileSize diFileAttributes diPackedEaSize
    diUnpackedEaSizeDifference fileNameFlags fileNameInformation
  refine cut_title _ (cut_step _ (kept_map _ (kept_unpack _ _ 0 8 (by decide))) (cut_step _ (kept_map _ (kept_time_drop _ _ _)) (cut_step _
    (kept_map _ (kept_time_drop _ _ _)) (cut_step _ (kept_map _ (kept_time_drop _ _ _)) (cut_step _ (kept_map _ (kept_time_drop _ _ _)) (cut_step _
    (kept_pair (kept_map _ (kept_signed_drop _ _ _)) (kept_map _ (kept_signed_drop _ _ _))) (cut_step _ (kept_map _ (kept_drop _ 48 4 (by decide)))
    (cut_step _ (kept_pair (kept_map _ (kept_drop _ 52 2 (by decide))) (kept_map _ (kept_drop _ 54 2 (by decide)))) (cut_end _ ?_)))))))))
  rw [at_error (i := 65) (n := 1) (by omega) (by decide)]
  rfl

/-! ### Other attributes with fields -/

theorem C128_volume_information (v : Bytes) (h : 12 ≤ v.length) : Print.volumeInformation v = ⟨Spec.Printed.volumeInformation v, none⟩ := by
  unfold Print.volumeInformation volumeMajor volumeMinor volumeFlags
  rw [at_ok (i := 8) (n := 1) (by omega), at_ok (i := 9) (n := 1) (by omega), at_ok (i := 10) (n := 2) (by omega)]
  simp only [Except.map, shown_ok, title_eq, decimal_eq, hex_eq]
  rfl

theorem C128_reparse_point (v : Bytes) (h : 6 ≤ v.length) : Print.reparsePoint v = ⟨Spec.Printed.reparsePoint v, none⟩ := by
  unfold Print.reparsePoint reparseIsMicrosoft reparseTag reparseDataLength
  rw [at_ok (i := 0) (n := 4) (by omega), at_ok (i := 4) (n := 2) (by omega)]
  simp only [Except.map, shown_ok, title_eq, decimal_eq, hex_eq]
  have hlt := field_lt' v 0 4
  have e : Print.truth (decide (field v 0 4 &&& 0x80000000 > 0)) = yes (2 ^ 31 ≤ field v 0 4) := by
    unfold Print.truth yes
    have hb := and_two_pow_pos (field v 0 4) 31
    rw [show (0x80000000 : Nat) = 2 ^ 31 from rfl]
    by_cases hc : 2 ^ 31 ≤ field v 0 4
    · rw [if_pos hc, if_pos (by simp only [decide_eq_true_eq]; exact hb.2 (by simp only [Nat.testBit_eq_decide_div_mod_eq, decide_eq_true_eq]; omega))]
    · rw [if_neg hc, if_neg (by
        simp only [decide_eq_true_eq]
        intro hx
        have := hb.1 hx
        simp only [Nat.testBit_eq_decide_div_mod_eq, decide_eq_true_eq] at this
        omega)]
  rw [e]
  rfl

theorem C128_ea_information (v : Bytes) (h : 8 ≤ v.length) : Print.eaInformation v = ⟨Spec.Printed.eaInformation v, none⟩ := by
  unfold Print.eaInformation eaPackedSize eaNeedCount eaUnpackedSize
  rw [at_ok (i := 0) (n := 2) (by omega), at_ok (i := 2) (n := 2) (by omega), at_ok (i := 4) (n := 4) (by omega)]
  simp only [Except.map, shown_ok, title_eq, decimal_eq]
  rfl

/-- C128: shorter values of these attributes. -/
theorem C128_short (v w : Bytes) :
    (v.length < 12 → (Print.volumeInformation v).err = some .StructError ∧ (Print.volumeInformation v).items <+: (Print.volumeInformation (v ++ w)).items) ∧
    (v.length < 6 → (Print.reparsePoint v).err = some .StructError ∧ (Print.reparsePoint v).items <+: (Print.reparsePoint (v ++ w)).items) ∧
    (v.length < 8 → (Print.eaInformation v).err = some .StructError ∧ (Print.eaInformation v).items <+: (Print.eaInformation (v ++ w)).items) := by
  refine ⟨fun h => ?_, fun h => ?_, fun h => ?_⟩
  · unfold Print.volumeInformation volumeMajor volumeMinor volumeFlags
    refine cut_title _ (cut_step _ ?_ (cut_end _ ?_))
    · rcases kept_unpack v w 8 1 (by decide) with e | ⟨a, e, e'⟩
      · rw [e]; exact .inl rfl
      · rw [e, e']; exact kept_map _ (kept_unpack _ _ 9 1 (by decide))
    · rw [at_error (i := 10) (n := 2) (by omega) (by decide)]; rfl
  · unfold Print.reparsePoint reparseIsMicrosoft reparseTag reparseDataLength
    refine cut_title _ (cut_step _ ?_ (cut_end _ ?_))
    · rcases kept_unpack v w 0 4 (by decide) with e | ⟨a, e, e'⟩
      · rw [e]; exact .inl rfl
      · rw [e, e']; exact .inr ⟨_, rfl, rfl⟩
    · rw [at_error (i := 4) (n := 2) (by omega) (by decide)]; rfl
  · unfold Print.eaInformation eaPackedSize eaNeedCount eaUnpackedSize
    refine cut_title _ (cut_step _ (kept_map _ (kept_unpack _ _ 0 2 (by decide))) (cut_step _ (kept_map _ (kept_unpack _ _ 2 2 (by decide))) (cut_end _ ?_)))
    rw [at_error (i := 4) (n := 4) (by omega) (by decide)]; rfl

/-- C128: the attributes of which only a length or a name is printed. -/
theorem C128_lengths (v : Bytes) :
    Print.data (some v) = ⟨sized "$DATA:" " Length (bytes): " v.length, none⟩ ∧
    Print.data none = ⟨[Str.ofString "$DATA"], none⟩ ∧
    Print.securityDescriptor v = ⟨sized "$SECURITY_DESCRIPTOR:" " Length (bytes): " v.length, none⟩ ∧
    Print.loggedUtilityStream v = ⟨sized "$LOGGED_UTILITY_STREAM:" " Length (bytes): " v.length, none⟩ ∧
    Print.bitmap v = ⟨sized "$BITMAP:" " Length (bits): " (8 * v.length), none⟩ ∧
    Print.printVolumeName v = ⟨[Str.ofString "$VOLUME_NAME:", line " Volume name: " (utf16Decode v)], none⟩ := by
  unfold Print.data Print.securityDescriptor Print.loggedUtilityStream Print.bitmap Print.printVolumeName
  simp only [shown_ok, title_eq, decimal_eq, Nat.mul_comm v.length 8]
  exact ⟨rfl, rfl, rfl, rfl, rfl, rfl⟩

/-- C128: `$OBJECT_ID`, of any length. -/
theorem C128_object_id (v : Bytes) : (Print.objectID v).err = none ∧ IsObjectID v (Print.objectID v).items := by
  unfold Print.objectID IsObjectID objectIdExtra objectIdTimestamp objectId
  have hs : slice v 0 16 = v.take 16 := by unfold slice; rw [List.drop_zero]
  rw [hs]
  by_cases h : 16 ≤ v.length
  · have hl : (v.take 16).length = 16 := by rw [List.length_take]; omega
    rw [if_neg (by omega), if_pos h, if_pos h]
    dsimp only
    rw [Proof.MoveReport.guidText_eq hl]
    have hm : Spec.Printed.IsMoment (Print.moment epoch1582 (guidTimestamp (v.take 16))) (Spec.MoveReport.guidMoment (v.take 16)) := by
      rw [guidTimestamp_eq]
      unfold Spec.MoveReport.guidMoment
      cases hg : (Spec.MoveReport.guidUnits (v.take 16)).bind decodeGuidTime with
      | none => rfl
      | some u =>
        show Spec.MemTable.IsText (strDatetime (epoch1582 + u)) _
        rw [← epochs.2.1]
        refine strDatetime_text ?_
        cases hu : Spec.MoveReport.guidUnits (v.take 16) with
        | none => rw [hu] at hg; cases hg
        | some n =>
          rw [hu] at hg
          change decodeGuidTime n = some u at hg
          unfold decodeGuidTime at hg
          split at hg
          · next hlt =>
            cases hg
            unfold microsecondsFrom1582 at hlt
            unfold epoch1582
            omega
          · cases hg
    by_cases hx : 16 < v.length
    · rw [if_pos (c := (v.drop 16).length > 0) (by rw [List.length_drop]; omega), if_pos hx]
      exact ⟨rfl, _, hm, rfl⟩
    · rw [if_neg (c := (v.drop 16).length > 0) (by rw [List.length_drop]; omega), if_neg hx]
      exact ⟨rfl, _, hm, rfl⟩
  · rw [if_pos (by rw [List.length_take]; omega), if_neg h, if_neg h, if_neg (by rw [List.length_drop]; omega), if_neg (by omega)]
    exact ⟨rfl, _, rfl, rfl⟩

/-! ### Lists -/

theorem listLines_eq : ∀ (l : List AttributeListEntry) (i : Nat), Print.listLines i l = numbered listEntry i l
  | [], _ => rfl
  | e :: rest, i => by
    unfold Print.listLines numbered
    rw [listLines_eq rest (i + 1)]
    unfold listEntry
    simp only [decimal_eq, hex_eq]
    cases e.name <;> simp [line, two, three, Str.ofString]

/-- C128: `$ATTRIBUTE_LIST`: two lines for each entry, numbered from 1, then the last compacted size.  Only that can be missing. -/
theorem C128_attribute_list (v : Bytes) :
    (slice v 26 28 ≠ [0x44, 0x43] ∨ 32 ≤ v.length → Print.attributeList v = ⟨Spec.Printed.attributeList v (attributeListEntries v), none⟩) ∧
    (slice v 26 28 = [0x44, 0x43] ∧ v.length < 32 →
      Print.attributeList v = ⟨(Spec.Printed.attributeList v (attributeListEntries v)).dropLast, some .StructError⟩) := by
  unfold Print.attributeList Spec.Printed.attributeList lastCompactedSize
  rw [listLines_eq]
  constructor
  · intro h
    by_cases hc : slice v 26 28 = [0x44, 0x43]
    · rw [if_neg (fun x => x hc), if_pos hc]
      rw [at_ok (i := 28) (n := 4) (by rcases h with h | h; exact absurd hc h; omega)]
      simp [Except.map, Print.shown, title_eq, Gen.append, decimal_eq, Gen.cons, Gen.done, Str.ofString, line]
    · rw [if_pos hc, if_neg hc]
      simp [Except.map, Print.shown, title_eq, Gen.append, Gen.cons, Gen.done, Str.ofString, line]
  · rintro ⟨hc, hl⟩
    rw [if_neg (fun x => x hc), at_error (i := 28) (n := 4) (by omega) (by decide)]
    simp [Except.map, Print.shown, title_eq, Gen.append, Gen.fail, Str.ofString, List.dropLast_cons_of_ne_nil, List.dropLast_append_of_ne_nil]

/-! ### UTF-8 -/

theorem continuation_eq (b : UInt8) : Spec.Text.continuation b = if Print.isContinuation b = true then some (b.toNat - 0x80) else none := by
  unfold Spec.Text.continuation Print.isContinuation
  simp only [decide_eq_true_eq]

/-- What a text says about bytes: it is the text they are, or has a replacement character. -/
def Reads (b : Bytes) (text : Str) : Prop := ∀ o, Spec.Text.utf8Decode b = o → match o with | some s => text = s | none => 0xFFFD ∈ text

theorem reads_cons {b r : Bytes} {c : Nat} {t : Str} (h : Spec.Text.utf8Decode b = (Spec.Text.utf8Decode r).map (c :: ·)) (hr : Reads r t) : Reads b (c :: t) := by
  rintro o rfl
  rw [h]
  have := hr _ rfl
  cases hd : Spec.Text.utf8Decode r with
  | none => rw [hd] at this; exact List.mem_cons_of_mem _ this
  | some s => rw [hd] at this; exact congrArg _ this

theorem reads_bad {b : Bytes} {t : Str} (h : Spec.Text.utf8Decode b = none) : Reads b (0xFFFD :: t) := by
  rintro o rfl
  rw [h]
  exact List.mem_cons_self

theorem decode_low {a : UInt8} (r : Bytes) (h : a.toNat < 0x80) : Spec.Text.utf8Decode (a :: r) = (Spec.Text.utf8Decode r).map (a.toNat :: ·) := by
  rw [Spec.Text.utf8Decode.eq_def]; dsimp only; rw [if_pos h]

theorem decode_no {a : UInt8} (r : Bytes) (h : ¬ a.toNat < 0x80) (h' : a.toNat < 0xC2 ∨ 0xF5 ≤ a.toNat) : Spec.Text.utf8Decode (a :: r) = none := by
  rw [Spec.Text.utf8Decode.eq_def]
  dsimp only
  rw [if_neg h]
  by_cases h1 : a.toNat < 0xC0
  · rw [if_pos h1]
  · rw [if_neg h1]
    rcases h' with h' | h'
    · rw [if_pos (by omega)]
      cases r with
      | nil => rfl
      | cons b r =>
        dsimp only
        unfold Spec.Text.continuation
        by_cases hb : 0x80 ≤ b.toNat ∧ b.toNat < 0xC0
        · rw [if_pos hb]
          dsimp only [bind, Option.bind]
          rw [if_pos (by omega)]
        · rw [if_neg hb]; rfl
    · rw [if_neg (by omega), if_neg (by omega)]
      by_cases h2 : a.toNat < 0xF8
      · rw [if_pos h2]
        rcases r with _ | ⟨b, _ | ⟨c, _ | ⟨d, r⟩⟩⟩
        · rfl
        · rfl
        · rfl
        · dsimp only
          unfold Spec.Text.continuation
          by_cases hb : 0x80 ≤ b.toNat ∧ b.toNat < 0xC0
          · rw [if_pos hb]
            by_cases hc : 0x80 ≤ c.toNat ∧ c.toNat < 0xC0
            · rw [if_pos hc]
              by_cases hd : 0x80 ≤ d.toNat ∧ d.toNat < 0xC0
              · rw [if_pos hd]
                dsimp only [bind, Option.bind]
                rw [if_pos (by omega)]
              · rw [if_neg hd]; rfl
            · rw [if_neg hc]; rfl
          · rw [if_neg hb]; rfl
      · rw [if_neg h2]

theorem decode_two {a : UInt8} (r : Bytes) (h : 0xC2 ≤ a.toNat) (h' : a.toNat < 0xE0) : Spec.Text.utf8Decode (a :: r) =
    match r with
    | b :: r => if Print.isSecond a b = true then (Spec.Text.utf8Decode r).map (((a.toNat - 0xC0) * 64 + (b.toNat - 0x80)) :: ·) else none
    | [] => none := by
  rw [Spec.Text.utf8Decode.eq_def]
  dsimp only
  rw [if_neg (by omega), if_neg (by omega), if_pos h']
  cases r with
  | nil => rfl
  | cons b r =>
    dsimp only
    have e : Print.isSecond a b = true ↔ 0x80 ≤ b.toNat ∧ b.toNat < 0xC0 := by
      unfold Print.isSecond Print.isContinuation
      simp only [Bool.and_eq_true, decide_eq_true_eq]
      constructor
      · exact fun x => x.1
      · exact fun x => ⟨x, by omega, by omega, by omega, by omega⟩
    unfold Spec.Text.continuation
    by_cases hb : 0x80 ≤ b.toNat ∧ b.toNat < 0xC0
    · rw [if_pos hb, if_pos (e.2 hb)]
      dsimp only [bind, Option.bind]
      rw [if_neg (by omega)]
    · rw [if_neg hb, if_neg (fun x => hb (e.1 x))]; rfl

theorem second_iff (a b : UInt8) : Print.isSecond a b = true ↔ (0x80 ≤ b.toNat ∧ b.toNat < 0xC0) ∧ (a.toNat = 0xE0 → 0xA0 ≤ b.toNat) ∧
    (a.toNat = 0xED → b.toNat < 0xA0) ∧ (a.toNat = 0xF0 → 0x90 ≤ b.toNat) ∧ (a.toNat = 0xF4 → b.toNat < 0x90) := by
  unfold Print.isSecond Print.isContinuation
  simp only [Bool.and_eq_true, decide_eq_true_eq]

theorem continuation_iff (b : UInt8) : Print.isContinuation b = true ↔ 0x80 ≤ b.toNat ∧ b.toNat < 0xC0 := by
  unfold Print.isContinuation
  simp only [decide_eq_true_eq]

theorem decode_three {a : UInt8} (r : Bytes) (h : 0xE0 ≤ a.toNat) (h' : a.toNat < 0xF0) : Spec.Text.utf8Decode (a :: r) =
    match r with
    | b :: c :: r => if Print.isSecond a b = true ∧ Print.isContinuation c = true then
        (Spec.Text.utf8Decode r).map ((((a.toNat - 0xE0) * 64 + (b.toNat - 0x80)) * 64 + (c.toNat - 0x80)) :: ·) else none
    | _ => none := by
  rw [Spec.Text.utf8Decode.eq_def]
  dsimp only
  rw [if_neg (by omega), if_neg (by omega), if_neg (by omega), if_pos h']
  rcases r with _ | ⟨b, _ | ⟨c, r⟩⟩
  · rfl
  · rfl
  · dsimp only
    simp only [second_iff, continuation_iff]
    unfold Spec.Text.continuation
    by_cases hb : 0x80 ≤ b.toNat ∧ b.toNat < 0xC0
    · by_cases hc : 0x80 ≤ c.toNat ∧ c.toNat < 0xC0
      · rw [if_pos hb, if_pos hc]
        dsimp only [bind, Option.bind]
        by_cases hx : (a.toNat = 0xE0 → 0xA0 ≤ b.toNat) ∧ (a.toNat = 0xED → b.toNat < 0xA0)
        · rw [if_neg (by omega), if_pos ⟨⟨hb, hx.1, hx.2, by omega, by omega⟩, hc⟩]
        · rw [if_pos (by omega), if_neg (fun x => hx ⟨x.1.2.1, x.1.2.2.1⟩)]
      · rw [if_pos hb, if_neg hc]; exact (if_neg fun x => hc x.2).symm
    · rw [if_neg hb]; exact (if_neg fun x => hb x.1.1).symm

theorem decode_four {a : UInt8} (r : Bytes) (h : 0xF0 ≤ a.toNat) (h' : a.toNat < 0xF5) : Spec.Text.utf8Decode (a :: r) =
    match r with
    | b :: c :: d :: r => if Print.isSecond a b = true ∧ Print.isContinuation c = true ∧ Print.isContinuation d = true then
        (Spec.Text.utf8Decode r).map (((((a.toNat - 0xF0) * 64 + (b.toNat - 0x80)) * 64 + (c.toNat - 0x80)) * 64 + (d.toNat - 0x80)) :: ·) else none
    | _ => none := by
  rw [Spec.Text.utf8Decode.eq_def]
  dsimp only
  rw [if_neg (by omega), if_neg (by omega), if_neg (by omega), if_neg (by omega), if_pos (by omega)]
  rcases r with _ | ⟨b, _ | ⟨c, _ | ⟨d, r⟩⟩⟩
  · rfl
  · rfl
  · rfl
  · dsimp only
    simp only [second_iff, continuation_iff]
    unfold Spec.Text.continuation
    by_cases hb : 0x80 ≤ b.toNat ∧ b.toNat < 0xC0
    · by_cases hc : 0x80 ≤ c.toNat ∧ c.toNat < 0xC0
      · by_cases hd : 0x80 ≤ d.toNat ∧ d.toNat < 0xC0
        · rw [if_pos hb, if_pos hc, if_pos hd]
          dsimp only [bind, Option.bind]
          by_cases hx : (a.toNat = 0xF0 → 0x90 ≤ b.toNat) ∧ (a.toNat = 0xF4 → b.toNat < 0x90)
          · rw [if_neg (by omega), if_pos ⟨⟨hb, by omega, by omega, hx.1, hx.2⟩, hc, hd⟩]
          · rw [if_pos (by omega), if_neg (fun x => hx ⟨x.1.2.2.2.1, x.1.2.2.2.2⟩)]
        · rw [if_pos hb, if_pos hc, if_neg hd]; exact (if_neg fun x => hd x.2.2).symm
      · rw [if_pos hb, if_neg hc]; exact (if_neg fun x => hc x.2.1).symm
    · rw [if_neg hb]; exact (if_neg fun x => hb x.1.1).symm

theorem utf8Replace_reads (b : Bytes) : Reads b (Print.utf8Replace b) := by
  fun_induction Print.utf8Replace b with
  | case1 => rintro o rfl; rfl
  | case2 a rest h ih => exact reads_cons (decode_low _ h) ih
  | case3 a rest h h' ih => exact reads_bad (decode_no _ h h')
  | case4 a h h' =>
    refine reads_bad ?_
    by_cases h1 : a.toNat < 0xE0
    · rw [decode_two _ (by omega) h1]
    · by_cases h2 : a.toNat < 0xF0
      · rw [decode_three _ (by omega) h2]
      · rw [decode_four _ (by omega) (by omega)]
  | case5 a h h' b r hs ih =>
    have hn : ¬ Print.isSecond a b = true := by rw [hs]; decide
    refine reads_bad ?_
    by_cases h1 : a.toNat < 0xE0
    · rw [decode_two _ (by omega) h1]; exact if_neg hn
    · by_cases h2 : a.toNat < 0xF0
      · rw [decode_three _ (by omega) h2]
        rcases r with _ | ⟨c, r⟩
        · rfl
        · exact if_neg fun x => hn x.1
      · rw [decode_four _ (by omega) (by omega)]
        rcases r with _ | ⟨c, _ | ⟨d, r⟩⟩
        · rfl
        · rfl
        · exact if_neg fun x => hn x.1
  | case6 a h h' b r hs h1 ih =>
    refine reads_cons ?_ ih
    rw [decode_two _ (by omega) h1]
    exact if_pos ((Bool.not_eq_false _).mp hs)
  | case7 a h h' b hs h1 =>
    refine reads_bad ?_
    by_cases h2 : a.toNat < 0xF0
    · rw [decode_three _ (by omega) h2]
    · rw [decode_four _ (by omega) (by omega)]
  | case8 a h h' b hs h1 c r hc ih =>
    have hn : ¬ Print.isContinuation c = true := by rw [hc]; decide
    refine reads_bad ?_
    by_cases h2 : a.toNat < 0xF0
    · rw [decode_three _ (by omega) h2]; exact if_neg fun x => hn x.2
    · rw [decode_four _ (by omega) (by omega)]
      rcases r with _ | ⟨d, r⟩
      · rfl
      · exact if_neg fun x => hn x.2.1
  | case9 a h h' b hs h1 c r hc h2 ih =>
    refine reads_cons ?_ ih
    rw [decode_three _ (by omega) h2]
    exact if_pos ⟨(Bool.not_eq_false _).mp hs, (Bool.not_eq_false _).mp hc⟩
  | case10 a h h' b hs h1 c hc h2 =>
    refine reads_bad ?_
    rw [decode_four _ (by omega) (by omega)]
  | case11 a h h' b hs h1 c hc h2 d r hd ih =>
    have hn : ¬ Print.isContinuation d = true := by rw [hd]; decide
    refine reads_bad ?_
    rw [decode_four _ (by omega) (by omega)]
    exact if_neg fun x => hn x.2.2
  | case12 a h h' b hs h1 c hc h2 d r hd ih =>
    refine reads_cons ?_ ih
    rw [decode_four _ (by omega) (by omega)]
    exact if_pos ⟨(Bool.not_eq_false _).mp hs, (Bool.not_eq_false _).mp hc, (Bool.not_eq_false _).mp hd⟩

/-- C128: the name of an extended attribute that is UTF-8 is shown as it is; one that is not has a replacement character. -/
theorem C128_utf8 (b : Bytes) : (∀ s, Spec.Text.utf8Decode b = some s → Print.utf8Replace b = s) ∧
    (Spec.Text.utf8Decode b = none → 0xFFFD ∈ Print.utf8Replace b) :=
  ⟨fun _ h => utf8Replace_reads b _ h, fun h => utf8Replace_reads b _ h⟩

theorem eaLines_is : ∀ (l : List ExtendedAttribute) (i : Nat), IsEaEntries i l (Print.eaLines i l)
  | [], _ => rfl
  | e :: rest, i => by
    refine ⟨_, _, ⟨Print.utf8Replace e.name, (C128_utf8 e.name).1, (C128_utf8 e.name).2, rfl⟩, eaLines_is rest (i + 1), ?_⟩
    rw [Print.eaLines]
    simp only [decimal_eq, hex_eq, line, List.append_assoc]
    rfl

/-- C128: `$EA`: the length, then three lines for each extended attribute, numbered from 1. -/
theorem C128_ea (v : Bytes) : ∃ lines, IsEaEntries 1 (eaParsed v) lines ∧
    Print.ea v = ⟨sized "$EA:" " Length (bytes): " v.length ++ lines, none⟩ := by
  refine ⟨_, eaLines_is _ _, ?_⟩
  unfold Print.ea
  simp only [title_eq, shown_ok, decimal_eq]
  rfl

/-! ### Indexes -/

/-- The lines about the entries of an index, when their fields can be read. -/
theorem rootLines_is : ∀ (es : List IndexEntry) (header : Bool) (attributes : List (Option Bytes)) (subnodes : List (Option Nat)),
    es.map (·.attribute) = attributes.map .ok → es.map (·.vcn) = subnodes.map .ok →
    ∃ blocks : List (List Str), IsFileNames (attributes.filterMap fun a => a.filter (66 < ·.length)) blocks ∧
      Print.rootLines header es = (⟨(if blocks = [] ∨ header = false then [] else [[], Str.ofString "File names in the index:"]) ++ blocks.flatten, none⟩,
        subnodes.map subnode)
  | [], header, attributes, subnodes, ha, hv => by
    cases attributes with
    | cons _ _ => cases ha
    | nil =>
      cases subnodes with
      | cons _ _ => cases hv
      | nil => exact ⟨[], trivial, by simp [Print.rootLines, Gen.done]⟩
  | e :: rest, header, attributes, subnodes, ha, hv => by
    cases attributes with
    | nil => cases ha
    | cons a attributes =>
      cases subnodes with
      | nil => cases hv
      | cons n subnodes =>
        simp only [List.map_cons, List.cons.injEq] at ha hv
        obtain ⟨ha, ha'⟩ := ha
        obtain ⟨hv, hv'⟩ := hv
        rw [Print.rootLines, hv, ha]
        dsimp only
        cases a with
        | none =>
          obtain ⟨blocks, hb, e1⟩ := rootLines_is rest header attributes subnodes ha' hv'
          refine ⟨blocks, by simpa using hb, ?_⟩
          dsimp only
          rw [e1]
          cases n <;> simp [subnode, decimal_eq]
        | some raw =>
          dsimp only
          by_cases hl : raw.length > 66
          · obtain ⟨blocks, hb, e1⟩ := rootLines_is rest false attributes subnodes ha' hv'
            have hf := C128_file_name raw (by omega)
            refine ⟨(Print.fileName raw).items :: blocks, ?_, ?_⟩
            · rw [List.filterMap_cons_some (b := raw) (by simp [Option.filter, show 66 < raw.length from hl])]
              exact ⟨hf.2, hb⟩
            · rw [if_pos hl, e1]
              cases header <;> cases n <;> simp [Gen.append, hf.1, title_eq, Gen.done, Str.ofString, subnode, decimal_eq]
          · obtain ⟨blocks, hb, e1⟩ := rootLines_is rest header attributes subnodes ha' hv'
            refine ⟨blocks, ?_, ?_⟩
            · rw [List.filterMap_cons_none (by simp [Option.filter]; omega)]
              exact hb
            · rw [if_neg hl, e1]
              cases n <;> simp [subnode, decimal_eq]

/-- The first lines about an index root. -/
theorem indexRoot_head (v : Bytes) (h : 29 ≤ v.length) : ∃ rest : Gen Str, Print.indexRoot v = ⟨indexRootHead v ++ rest.items, rest.err⟩ ∧
    rest = if field v 0 4 = 0x30 then
      Gen.append (Print.rootLines true (indexRootEntries v).items).1 (match (indexRootEntries v).err with
        | some e => .fail e
        | none => if (Print.rootLines true (indexRootEntries v).items).2.length > 0 then
            Print.title "" (Print.shown "Subnode VCN list: " (.ok (pyJoin [0x20] (Print.rootLines true (indexRootEntries v).items).2)) .done) else .done)
      else .done := by
  refine ⟨_, ?_, rfl⟩
  have hs : ∀ i j, i ≤ j → j ≤ 16 → slice (indexRootHeader v) i j = slice v (16 + i) (16 + j) := fun i j _ _ => by
    unfold indexRootHeader
    exact slice_slice v 16 32 i j (by omega)
  unfold Print.indexRoot indexRootType indexRootCollation indexRootBytes indexRootBlocks indexHeaderFirst indexHeaderFree indexHeaderAvailable indexHeaderFlags
  rw [hs 0 4 (by decide) (by decide), hs 4 8 (by decide) (by decide), hs 8 12 (by decide) (by decide), hs 12 13 (by decide) (by decide)]
  rw [at_ok (i := 0) (n := 4) (by omega), at_ok (i := 4) (n := 4) (by omega), at_ok (i := 8) (n := 4) (by omega), at_ok (i := 12) (n := 4) (by omega),
    at_ok (i := 16 + 0) (n := 4) (by omega), at_ok (i := 16 + 4) (n := 4) (by omega), at_ok (i := 16 + 8) (n := 4) (by omega),
    at_ok (i := 16 + 12) (n := 1) (by omega)]
  simp only [Except.map, Print.pair, shown_ok, title_eq, decimal_eq, hex_eq, Except.ok.injEq]
  by_cases hc : field v 0 4 = 0x30
  · rw [if_pos hc, if_pos hc]; rfl
  · rw [if_neg hc, if_neg hc]; rfl

/-- C128: `$INDEX_ROOT`: the header; for an index of file names also the names in the entries, and their subnodes. -/
theorem C128_index_root (v : Bytes) (h : 29 ≤ v.length) :
    (field v 0 4 ≠ 0x30 → Print.indexRoot v = ⟨indexRootHead v, none⟩) ∧
    (∀ (attributes : List (Option Bytes)) (subnodes : List (Option Nat)), field v 0 4 = 0x30 → (indexRootEntries v).err = none →
      (indexRootEntries v).items.map (·.attribute) = attributes.map .ok → (indexRootEntries v).items.map (·.vcn) = subnodes.map .ok →
      ∃ lines, IsIndexNames attributes subnodes lines ∧ Print.indexRoot v = ⟨indexRootHead v ++ lines, none⟩) := by
  obtain ⟨rest, e, hr⟩ := indexRoot_head v h
  constructor
  · intro hc
    rw [if_neg hc] at hr
    rw [e, hr]
    simp [Gen.done]
  · intro attributes subnodes hc he ha hv
    obtain ⟨blocks, hb, e1⟩ := rootLines_is _ true attributes subnodes ha hv
    refine ⟨_, ⟨blocks, hb, rfl⟩, ?_⟩
    rw [if_pos hc, he, e1] at hr
    dsimp only at hr
    rw [List.length_map] at hr
    rw [e]
    by_cases hs : subnodes = []
    · rw [if_neg (c := subnodes.length > 0) (by rw [hs]; simp)] at hr
      rw [if_pos hs, hr]
      simp [Gen.append, Gen.done]
    · rw [if_pos (c := subnodes.length > 0) (List.length_pos_iff.2 hs)] at hr
      rw [if_neg hs, hr]
      have hj := spaced_eq (subnodes.map subnode)
      rw [show Str.ofString " " = [0x20] from rfl] at hj
      simp [Gen.append, Gen.done, title_eq, shown_ok, hj, Str.ofString]

theorem attribute_err {e : IndexEntry} {x : Exc} (h : e.attribute = .error x) : x = .StructError := by
  rw [C23_attribute] at h
  split at h
  · cases h; rfl
  · split at h <;> cases h

theorem vcn_err {e : IndexEntry} {x : Exc} (h : e.vcn = .error x) : x = .StructError := by
  unfold IndexEntry.vcn IndexEntry.length IndexEntry.flags at h
  cases h1 : unpackLE 2 (slice e.raw 8 10) with
  | error y => rw [h1] at h; injection h with h; rw [← h]; exact (unpackLE_error h1).2
  | ok n =>
    rw [h1] at h
    dsimp only at h
    cases h2 : unpackLE 2 (slice e.raw 12 14) with
    | error y => rw [h2] at h; injection h with h; rw [← h]; exact (unpackLE_error h2).2
    | ok fl =>
      rw [h2] at h
      dsimp only at h
      split at h
      · cases h3 : unpackLE 8 (slice e.raw (n - 8) n) with
        | error y => rw [h3] at h; injection h with h; rw [← h]; exact (unpackLE_error h3).2
        | ok m => rw [h3] at h; cases h
      · cases h

theorem rootLines_err : ∀ (es : List IndexEntry) (header : Bool),
    (Print.rootLines header es).1.err = none ∨ (Print.rootLines header es).1.err = some .StructError
  | [], _ => .inl rfl
  | e :: rest, header => by
    rw [Print.rootLines]
    cases hv : e.vcn with
    | error x => exact .inr (by rw [vcn_err hv]; rfl)
    | ok n =>
      cases ha : e.attribute with
      | error x => exact .inr (by rw [attribute_err ha]; rfl)
      | ok a =>
        dsimp only
        cases a with
        | none => exact rootLines_err rest header
        | some raw =>
          dsimp only
          by_cases hl : raw.length > 66
          · rw [if_pos hl]
            have hf := (C128_file_name raw (by omega)).1
            have ih := rootLines_err rest false
            cases header <;> simpa [Gen.append, hf, title_eq, Gen.done] using ih
          · rw [if_neg hl]
            exact rootLines_err rest header

/-- C128: the only exception that ends the printing of an index root is `struct.error`, and a value of fewer than 29 bytes leads to it. -/
theorem C128_index_root_error (v : Bytes) :
    ((Print.indexRoot v).err = none ∨ (Print.indexRoot v).err = some .StructError) ∧
    (v.length < 29 → (Print.indexRoot v).err = some .StructError) := by
  have short : v.length < 29 → (Print.indexRoot v).err = some .StructError := by
    intro h
    have hs : ∀ i j, i ≤ j → j ≤ 16 → slice (indexRootHeader v) i j = slice v (16 + i) (16 + j) := fun i j _ _ => by
      unfold indexRootHeader
      exact slice_slice v 16 32 i j (by omega)
    have key : Cut (Print.indexRoot v) (Print.indexRoot (v ++ [])) := by
      unfold Print.indexRoot indexRootType indexRootCollation indexRootBytes indexRootBlocks indexHeaderFirst indexHeaderFree indexHeaderAvailable
        indexHeaderFlags
      rw [List.append_nil]
      rw [hs 0 4 (by decide) (by decide), hs 4 8 (by decide) (by decide), hs 8 12 (by decide) (by decide), hs 12 13 (by decide) (by decide)]
      have k : ∀ i n, 0 < n → Kept (unpackLE n (slice v i (i + n))) (unpackLE n (slice v i (i + n))) := fun i n hn => by
        have := kept_unpack v [] i n hn
        rw [List.append_nil] at this
        exact this
      refine cut_title _ (cut_step _ (kept_map _ (k 0 4 (by decide))) (cut_step _ (kept_map _ (k 4 4 (by decide))) (cut_step _ (kept_pair
        (kept_map _ (k 8 4 (by decide))) (kept_map _ (k 12 4 (by decide)))) (cut_title _ (cut_title _ (cut_step _ (kept_map _ (k (16 + 0) 4 (by decide)))
        (cut_step _ (kept_map _ (k (16 + 4) 4 (by decide))) (cut_step _ (kept_map _ (k (16 + 8) 4 (by decide))) (cut_end _ ?_)))))))))
      rw [at_error (i := 16 + 12) (n := 1) (by omega) (by decide)]
      rfl
    exact key.1
  refine ⟨?_, short⟩
  by_cases h : 29 ≤ v.length
  · obtain ⟨rest, e, hr⟩ := indexRoot_head v h
    rw [e]
    show rest.err = none ∨ rest.err = some .StructError
    by_cases hc : field v 0 4 = 0x30
    · rw [if_pos hc] at hr
      rw [hr]
      rcases rootLines_err (indexRootEntries v).items true with h1 | h1
      · have he : (indexRootEntries v).err = none ∨ (indexRootEntries v).err = some .StructError := (C23_sound_partial v 16 false).2.2
        unfold Gen.append
        rw [h1]
        dsimp only
        rcases he with he | he
        · rw [he]
          left
          dsimp only
          split <;> rfl
        · rw [he]; exact .inr rfl
      · unfold Gen.append
        rw [h1]
        exact .inr rfl
    · rw [if_neg hc] at hr
      rw [hr]
      exact .inl rfl
  · exact .inr (short (by omega))

/-- C128: `$INDEX_ALLOCATION`: the size of its buffers, if it is known, and the size of the file. -/
theorem C128_index_allocation (file : Bytes) (size : Option Nat) (h : indexBufferSize file = .ok size) :
    Print.indexAllocation file = ⟨[Str.ofString "$INDEX_ALLOCATION",
      line " Bytes per index buffer: " ((size.map digits).getD (Str.ofString "unknown")),
      line " Length: " (digits file.length)], none⟩ := by
  unfold Print.indexAllocation
  rw [h]
  cases size <;> simp only [title_eq, shown_ok, decimal_eq] <;> rfl

/-! ### WSL -/

/-- C128: the metadata of a WSL file: either all the lines, or an `OverflowError` when a date is after the year 9999. -/
theorem C128_wsl (v : Bytes) (h : v.length = 56) :
    ((∀ i ∈ [32, 40, 48], field v i 8 + 5 < 2932897 * 86400) → (Print.lxattrb v).err = none) ∧
    ((Print.lxattrb v).err = none → IsWsl v (Print.lxattrb v).items) ∧
    ((Print.lxattrb v).err = none ∨ (Print.lxattrb v).err = some .OverflowError) := by
  have ht := C52_times v h
  have t1 := ht _ (List.mem_cons_self)
  have t2 := ht _ (List.mem_cons_of_mem _ List.mem_cons_self)
  have t3 := ht _ (List.mem_cons_of_mem _ (List.mem_cons_of_mem _ List.mem_cons_self))
  dsimp only at t1 t2 t3
  obtain ⟨f1, f2, f3, f4⟩ := (C52_lxattrb v).2.2 h
  unfold Print.lxattrb
  rw [f1, f2, f3, f4]
  have text : ∀ {x : Except Exc Nat} {us s ns : Nat}, x = .ok us → 2 * (us * 1000) ≤ 2 * (s * 1000000000 + ns) + 1000 →
      2 * (s * 1000000000 + ns) ≤ 2 * (us * 1000) + 1000 → us < 2932897 * 86400000000 →
      IsUnixTime (Print.moment epoch1970 (some us)) s ns := fun {x us s ns} _ h1 h2 h3 => by
    refine ⟨us, ?_, h1, h2⟩
    rw [← epochs.2.2]
    exact strDatetime_text (by unfold epoch1970; omega)
  have lt : ∀ {i j us : Nat}, WSL.timeAt v i j = .ok us → us < 2932897 * 86400000000 := fun {i j us} hx => by
    unfold WSL.timeAt at hx
    split at hx
    · cases hx
    · split at hx
      · cases hx
      · unfold WSL.decodeUnixtime WSL.secondsFrom1970 at hx
        split at hx
        · cases hx
        · split at hx
          · cases hx
          · cases hx; omega
  rcases t1 with ⟨e1, o1⟩ | ⟨u1, e1, a1, b1⟩
  · refine ⟨fun hb => ?_, fun hc => ?_, .inr ?_⟩
    · have := hb 32 (by simp)
      unfold WSL.secondsFrom1970 at o1
      unfold field at this
      omega
    · rw [e1] at hc; cases hc
    · rw [e1]; rfl
  · rw [e1]
    rcases t2 with ⟨e2, o2⟩ | ⟨u2, e2, a2, b2⟩
    · refine ⟨fun hb => ?_, fun hc => ?_, .inr ?_⟩
      · have := hb 40 (by simp)
        unfold WSL.secondsFrom1970 at o2
        unfold field at this
        omega
      · rw [e2] at hc; cases hc
      · rw [e2]; rfl
    · rw [e2]
      rcases t3 with ⟨e3, o3⟩ | ⟨u3, e3, a3, b3⟩
      · refine ⟨fun hb => ?_, fun hc => ?_, .inr ?_⟩
        · have := hb 48 (by simp)
          unfold WSL.secondsFrom1970 at o3
          unfold field at this
          omega
        · rw [e3] at hc; cases hc
        · rw [e3]; rfl
      · rw [e3]
        refine ⟨fun _ => rfl, fun _ => ?_, .inl rfl⟩
        refine ⟨_, _, _, text e1 a1 b1 (lt e1), text e2 a2 b2 (lt e2), text e3 a3 b3 (lt e3), ?_⟩
        simp only [Except.map, shown_ok, title_eq, decimal_eq, hex_eq]
        rfl

/-! ### Reading the lines back -/

theorem isText_length {s : Str} {t : Nat} (h : Spec.MemTable.IsText s t) : s.length = 26 ∨ s.length = 19 := by
  rcases h with ⟨-, h⟩ | ⟨-, h⟩
  · exact .inl (Proof.MoveReport.denotes_length h)
  · have := Proof.MoveReport.denotes_length h
    rw [List.length_append] at this
    exact .inr (by have e : (Str.ofString ".000000").length = 7 := rfl; omega)

theorem isText_unique {s : Str} {t u : Nat} (h : Spec.MemTable.IsText s t) (h' : Spec.MemTable.IsText s u) : t = u := by
  have e : (Str.ofString ".000000").length = 7 := rfl
  rcases h with ⟨-, h⟩ | ⟨-, h⟩ <;> rcases h' with ⟨-, h'⟩ | ⟨-, h'⟩
  · exact Proof.MoveReport.denotes_unique h h'
  · have h1 := Proof.MoveReport.denotes_length h
    have h2 := Proof.MoveReport.denotes_length h'
    rw [List.length_append] at h2; omega
  · have h1 := Proof.MoveReport.denotes_length h
    have h2 := Proof.MoveReport.denotes_length h'
    rw [List.length_append] at h1; omega
  · exact Proof.MoveReport.denotes_unique h h'

theorem isMoment_unique {s : Str} {t u : Option Nat} (h : IsMoment s t) (h' : IsMoment s u) : t = u := by
  cases t with
  | none =>
    cases u with
    | none => rfl
    | some u =>
      have hs : s = Str.ofString "None" := h
      have := isText_length h'
      rw [hs, show (Str.ofString "None").length = 4 from rfl] at this
      omega
  | some t =>
    cases u with
    | none =>
      have hs : s = Str.ofString "None" := h'
      have := isText_length h
      rw [hs, show (Str.ofString "None").length = 4 from rfl] at this
      omega
    | some u => rw [isText_unique h h']

theorem two_inj {n m : Nat} {x y : Str} (h : two (digits n) x = two (digits m) y) : n = m ∧ x = y := by
  unfold two at h
  rw [List.append_assoc, List.append_assoc] at h
  obtain ⟨h1, h2⟩ := part_inj (c := 0x2C) (s := [0x20]) (digits_not (by decide)) (digits_not (by decide)) h
  exact ⟨decimal_digits_inj h1, h2⟩

theorem line_inj {label : String} {x y : Str} (h : line label x = line label y) : x = y := List.append_cancel_left h

/-- C128: two `$STANDARD_INFORMATION` values about which the same is printed have the same moments, attributes, versions, flags and class. -/
theorem C128_standard_readable (v v' : Bytes) (h : 48 ≤ v.length) (h' : 48 ≤ v'.length) (e : Print.standardInformation v = Print.standardInformation v') :
    (∀ i ∈ [0, 8, 16, 24], filetime v i = filetime v' i) ∧ (∀ i ∈ [32, 36, 40, 44], field v i 4 = field v' i 4) := by
  obtain ⟨-, c, m, a, x, hc, hm, ha, hx, hl⟩ := C128_standard_information v h
  obtain ⟨-, c', m', a', x', hc', hm', ha', hx', hl'⟩ := C128_standard_information v' h'
  rw [e, hl'] at hl
  simp only [List.cons.injEq, and_true] at hl
  obtain ⟨-, l1, l2, l3, l4, l5, l6, -, -, -, l7, -, -⟩ := hl
  rw [line_inj l1] at hc'
  rw [line_inj l2] at hm'
  rw [line_inj l3] at ha'
  rw [line_inj l4] at hx'
  have k6 := two_inj (line_inj l6)
  have k7 := (two_inj (line_inj l7)).1
  refine ⟨?_, ?_⟩
  · simp only [List.mem_cons, List.not_mem_nil, or_false, forall_eq_or_imp, forall_eq]
    exact ⟨isMoment_unique hc hc', isMoment_unique hm hm', isMoment_unique hx hx', isMoment_unique ha ha'⟩
  · simp only [List.mem_cons, List.not_mem_nil, or_false, forall_eq_or_imp, forall_eq]
    exact ⟨(hex_inj (line_inj l5)).symm, (decimal_digits_inj k6.2).symm, k6.1.symm, k7.symm⟩

theorem signed_not {n : Int} {c : Nat} (h : c < 0x2D ∨ 0x39 < c) : c ∉ signed n := by
  unfold signed
  split
  · intro hc
    rcases List.mem_append.1 hc with hc | hc
    · rw [show Str.ofString "-" = [0x2D] from rfl, List.mem_singleton] at hc; omega
    · exact digits_not (by omega) hc
  · exact digits_not (by omega)

theorem signed_inj {n m : Int} (h : signed n = signed m) : n = m := by
  unfold signed at h
  have hm : ∀ {k : Nat} {s : Str}, Str.ofString "-" ++ s ≠ digits k := fun {k s} hx => by
    have : (0x2D : Nat) ∈ digits k := by rw [← hx]; exact List.mem_append_left _ List.mem_cons_self
    exact digits_not (by decide) this
  split at h <;> split at h
  · have := decimal_digits_inj (List.append_cancel_left h); omega
  · exact absurd h hm
  · exact absurd h.symm hm
  · have := decimal_digits_inj h; omega

/-- C128: two `$FILE_NAME` values about which the same is printed have the same parent, moments, sizes, attributes, flags and name. -/
theorem C128_file_name_readable (v v' : Bytes) (h : 66 ≤ v.length) (h' : 66 ≤ v'.length) (e : Print.fileName v = Print.fileName v') :
    field v 0 8 = field v' 0 8 ∧ (∀ i ∈ [8, 16, 24, 32], filetime v i = filetime v' i) ∧ (∀ i ∈ [40, 48], field v i 8 = field v' i 8) ∧
    field v 56 4 = field v' 56 4 ∧ field v 60 2 = field v' 60 2 ∧ field v 62 2 = field v' 62 2 ∧ field v 65 1 = field v' 65 1 ∧
    utf16Decode (slice v 66 (66 + 2 * field v 64 1)) = utf16Decode (slice v' 66 (66 + 2 * field v' 64 1)) := by
  obtain ⟨-, c, m, a, x, hc, hm, ha, hx, hl⟩ := C128_file_name v h
  obtain ⟨-, c', m', a', x', hc', hm', ha', hx', hl'⟩ := C128_file_name v' h'
  rw [e, hl'] at hl
  simp only [List.cons.injEq, and_true] at hl
  obtain ⟨-, l0, l1, l2, l3, l4, l5, l6, l7, l8, l9⟩ := hl
  rw [line_inj l1] at hc'
  rw [line_inj l2] at hm'
  rw [line_inj l3] at ha'
  rw [line_inj l4] at hx'
  have k5 := line_inj l5
  unfold two at k5
  rw [List.append_assoc, List.append_assoc] at k5
  obtain ⟨s1, s2⟩ := part_inj (c := 0x2C) (s := [0x20]) (signed_not (by decide)) (signed_not (by decide)) k5
  have k7 := two_inj (line_inj l7)
  have hs : ∀ i, Spec.Printed.signedField v' i = Spec.Printed.signedField v i → field v i 8 = field v' i 8 := fun i hi => by
    unfold Spec.Printed.signedField at hi
    have h1 := field_lt' v i 8
    have h2 := field_lt' v' i 8
    split at hi <;> split at hi <;> omega
  simp only [List.mem_cons, List.not_mem_nil, or_false, forall_eq_or_imp, forall_eq]
  exact ⟨(decimal_digits_inj (line_inj l0)).symm,
    ⟨isMoment_unique hc hc', isMoment_unique hm hm', isMoment_unique hx hx', isMoment_unique ha ha'⟩,
    ⟨hs 40 (signed_inj s1), hs 48 (signed_inj s2)⟩, (hex_inj (line_inj l6)).symm, k7.1.symm, (decimal_digits_inj k7.2).symm,
    (hex_inj (line_inj l8)).symm, (line_inj l9).symm⟩

/-! ### Examples -/

/-- A `$STANDARD_INFORMATION` value: the times are 2021-01-01 and a later second, an invalid one and zero. -/
def exampleInformation : Bytes :=
  natLE 8 132539328000000000 ++ natLE 8 132539328010000020 ++ natLE 8 (2 ^ 64 - 1) ++ natLE 8 0 ++ natLE 4 0x2020 ++ natLE 4 2 ++ natLE 4 0x30D ++ natLE 4 7 ++
    natLE 4 5 ++ natLE 4 300

example : Print.standardInformation exampleInformation = ⟨[
    "$STANDARD_INFORMATION:", " File created: 2021-01-01 00:00:00", " File modified: 2021-01-01 00:00:01.000002", " File last accessed: 1601-01-01 00:00:00",
    " $MFT entry modified: None", " File attributes: 0x2020", " Current version, maximum versions: 781, 2", " Is case sensitive: True",
    " Storage reserve ID: 3", " Known folder tag: 6", " Class ID, owner ID, security ID: 7, 5, 300", " Quota charged: None",
    " Update sequence number: None"].map Str.ofString, none⟩ := by decide +kernel

example : 48 ≤ exampleInformation.length ∧ (exampleInformation.take 40).length < 48 := by decide +kernel

example : Print.standardInformation (exampleInformation.take 30) = ⟨["$STANDARD_INFORMATION:", " File created: 2021-01-01 00:00:00",
    " File modified: 2021-01-01 00:00:01.000002"].map Str.ofString, some .StructError⟩ := by decide +kernel

/-- A `$FILE_NAME` value: `ab`. -/
def exampleName : Bytes :=
  natLE 8 (5 + 5 * 2 ^ 48) ++ natLE 8 132539328000000000 ++ natLE 8 132539328000000000 ++ natLE 8 0 ++ natLE 8 132539328010000020 ++
    natLE 8 (2 ^ 64 - 1) ++ natLE 8 4096 ++ natLE 4 0x20 ++ natLE 2 0 ++ natLE 2 9 ++ [2, 3] ++ natLE 2 0x61 ++ natLE 2 0x62

example : Print.fileName exampleName = ⟨[
    "$FILE_NAME:", " Parent directory: 1407374883553285", " File created: 2021-01-01 00:00:00", " File modified: 2021-01-01 00:00:00",
    " File last accessed: 2021-01-01 00:00:01.000002", " $MFT entry modified: 1601-01-01 00:00:00", " Allocated length, file size: -1, 4096",
    " File attributes: 0x20", " Packed EA size, unpacked EA size difference: 0, 9", " Flags: 0x3", " File name (decoded): ab"].map Str.ofString, none⟩ := by
  decide +kernel

/-- An index of file names with one entry that has a subnode. -/
def exampleRoot : Bytes :=
  natLE 4 0x30 ++ natLE 4 1 ++ natLE 4 4096 ++ natLE 4 1 ++ natLE 4 16 ++ natLE 4 120 ++ natLE 4 120 ++ [1, 0, 0, 0] ++
    natLE 8 9 ++ natLE 2 104 ++ natLE 2 70 ++ natLE 2 1 ++ natLE 2 0 ++ exampleName ++ zeros 10 ++ natLE 8 77

example : (Print.indexRoot exampleRoot).err = none ∧ (Print.indexRoot exampleRoot).items = indexRootHead exampleRoot ++
    [[], Str.ofString "File names in the index:"] ++ (Print.fileName exampleName).items ++ [[], Str.ofString "Subnode VCN list: 77"] := by decide +kernel

example : 29 ≤ exampleRoot.length ∧ field exampleRoot 0 4 = 0x30 ∧ (indexRootEntries exampleRoot).err = none ∧
    (indexRootEntries exampleRoot).items.map (·.attribute) = [some exampleName].map .ok ∧
    (indexRootEntries exampleRoot).items.map (·.vcn) = [some 77].map .ok := by decide +kernel

/-- Three names: UTF-8, a sequence that is cut, and a byte that starts no sequence. -/
example : Print.utf8Replace [0xC3, 0xA9, 0x61] = [0xE9, 0x61] ∧ Print.utf8Replace [0xE2, 0x82, 0x61] = [0xFFFD, 0x61] ∧
    Print.utf8Replace [0xFF, 0xC0, 0x61] = [0xFFFD, 0xFFFD, 0x61] ∧ Spec.Text.utf8Decode [0xE2, 0x82, 0x61] = none := by decide +kernel

/-- The null character of the name of an extended attribute is printed. -/
theorem C128_null_printed : ∃ v : Bytes, Print.ea v = ⟨[Str.ofString "$EA:", Str.ofString " Length (bytes): 13", Str.ofString " EA #1 name: AB" ++ [0],
    Str.ofString " EA #1 flags: 0x80", Str.ofString " EA #1 value length (bytes): 2"], none⟩ :=
  ⟨natLE 4 0 ++ [0x80, 2] ++ natLE 2 2 ++ [0x41, 0x42, 0, 1, 2], by decide +kernel⟩

end Verif.Props.Printed
