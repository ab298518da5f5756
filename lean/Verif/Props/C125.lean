/-
Property C125: which files are opened as a file table, and the exceptions of opening one (dfir_ntfs/MFT.py:936-993).
-/
import Verif.Props.C85
namespace Verif.Props
open Verif.MFT Verif.Spec.FileRecord Verif.Spec.FragmentedFile Verif.Spec.FileSystem Verif.Attributes

theorem slice_one {v : Bytes} {i : Nat} : slice v i (i + 1) = (v[i]?).toList := by
  apply List.ext_getElem?
  intro k
  rw [slice_getElem?]
  cases k with
  | zero => rw [if_pos (by omega)]; cases v[i]? <;> rfl
  | succ k => rw [if_neg (by omega)]; cases v[i]? <;> rfl

theorem unpack_one {v : Bytes} {i : Nat} : unpackLE 1 (slice v i (i + 1)) = match v[i]? with
    | some b => .ok b.toNat
    | none => .error .StructError := by
  rw [slice_one]
  cases v[i]? with
  | none => rfl
  | some b =>
    unfold unpackLE
    rw [if_pos (by rfl)]
    simp [leNat]

/-- What decides about a file table: the attributes of the record 3, up to the first version of the volume. -/
theorem checkVersionLoop_ok {err : Option Exc} {items : List AttributeRecord} (h : checkVersionLoop err items = .ok ()) :
    ∃ before name v after minor, items = before ++ .resident 0x70 name v :: after ∧
      (∀ a ∈ before, ∀ t n w, a = .resident t n w → t ≠ 0x70 ∧ t ≠ 0xA0) ∧ v[8]? = some 3 ∧ v[9]? = some minor ∧ minor ≠ 0 := by
  induction items with
  | nil => unfold checkVersionLoop at h; split at h <;> cases h
  | cons a rest ih =>
    cases a with
    | nonresident t n x y z u w =>
      obtain ⟨before, name, v, after, minor, h1, h2, h3⟩ := ih h
      refine ⟨.nonresident t n x y z u w :: before, name, v, after, minor, by rw [h1]; rfl, ?_, h3⟩
      intro a ha t n w he
      rcases List.mem_cons.1 ha with rfl | ha
      · cases he
      · exact h2 a ha t n w he
    | resident t n v =>
      unfold checkVersionLoop at h
      by_cases hA0 : t = 0xA0
      · rw [if_pos hA0] at h; cases h
      rw [if_neg hA0] at h
      by_cases h70 : t = 0x70
      · rw [if_pos h70, unpack_one, unpack_one] at h
        subst h70
        cases h8 : v[8]? with
        | none => rw [h8] at h; cases h
        | some major =>
          cases h9 : v[9]? with
          | none => rw [h8, h9] at h; cases h
          | some minor =>
            rw [h8, h9] at h
            dsimp only at h
            split at h
            · cases h
            rename_i hmaj
            split at h
            · cases h
            rename_i hmin
            refine ⟨[], n, v, rest, minor, rfl, (fun _ h => by cases h), ?_, h9, ?_⟩
            · rw [h8, show major = 3 from UInt8.toNat_inj.1 (Decidable.not_not.1 hmaj)]
            · intro hc; subst hc; exact hmin (by decide)
      · rw [if_neg h70] at h
        obtain ⟨before, name, v', after, minor, h1, h2, h3⟩ := ih h
        refine ⟨.resident t n v :: before, name, v', after, minor, by rw [h1]; rfl, ?_, h3⟩
        intro a ha t' n' w he
        rcases List.mem_cons.1 ha with rfl | ha
        · cases he; exact ⟨h70, hA0⟩
        · exact h2 a ha t' n' w he

theorem checkVersionLoop_error {err : Option Exc} (herr : ∀ e, err = some e → e ∈ mftExceptions) {items : List AttributeRecord} {e : Exc}
    (h : checkVersionLoop err items = .error e) :
    e ∈ mftExceptions ∨ (e = .AttributeError ∧ ∃ n v, .resident 0xA0 n v ∈ items) ∨
      (e = .StructError ∧ ∃ n v, .resident 0x70 n v ∈ items ∧ v.length < 10) := by
  induction items with
  | nil =>
    unfold checkVersionLoop at h
    split at h
    · cases h; exact .inl (herr _ rfl)
    · cases h; exact .inl (by decide)
  | cons a rest ih =>
    have lift (hh : e ∈ mftExceptions ∨ (e = .AttributeError ∧ ∃ n v, AttributeRecord.resident 0xA0 n v ∈ rest) ∨
        (e = .StructError ∧ ∃ n v, AttributeRecord.resident 0x70 n v ∈ rest ∧ v.length < 10)) :
        e ∈ mftExceptions ∨ (e = .AttributeError ∧ ∃ n v, .resident 0xA0 n v ∈ a :: rest) ∨
        (e = .StructError ∧ ∃ n v, .resident 0x70 n v ∈ a :: rest ∧ v.length < 10) := by
      rcases hh with h | ⟨h, n, v, hm⟩ | ⟨h, n, v, hm, hl⟩
      · exact .inl h
      · exact .inr (.inl ⟨h, n, v, List.mem_cons_of_mem _ hm⟩)
      · exact .inr (.inr ⟨h, n, v, List.mem_cons_of_mem _ hm, hl⟩)
    cases a with
    | nonresident => exact lift (ih h)
    | resident t n v =>
      unfold checkVersionLoop at h
      by_cases hA0 : t = 0xA0
      · rw [if_pos hA0] at h
        cases h
        subst hA0
        exact .inr (.inl ⟨rfl, n, v, List.mem_cons_self ..⟩)
      rw [if_neg hA0] at h
      by_cases h70 : t = 0x70
      · rw [if_pos h70, unpack_one, unpack_one] at h
        subst h70
        cases h8 : v[8]? with
        | none =>
          rw [h8] at h; cases h
          exact .inr (.inr ⟨rfl, n, v, List.mem_cons_self .., by have := List.getElem?_eq_none_iff.1 h8; omega⟩)
        | some major =>
          cases h9 : v[9]? with
          | none =>
            rw [h8, h9] at h; cases h
            exact .inr (.inr ⟨rfl, n, v, List.mem_cons_self .., by have := List.getElem?_eq_none_iff.1 h9; omega⟩)
          | some minor =>
            rw [h8, h9] at h
            dsimp only at h
            split at h
            · cases h; exact .inl (by decide)
            split at h
            · cases h; exact .inl (by decide)
            · cases h
      · rw [if_neg h70] at h
        exact lift (ih h)

/-- The record of a volume of a supported version (3.1 and later minor versions): its first resident volume
information attribute says so, and no resident index allocation attribute comes before it. -/
def VolumeRecord (s : FileRecordSegment) : Prop :=
  ∃ before name v after minor, s.attributesGen.items = before ++ .resident 0x70 name v :: after ∧
    (∀ a ∈ before, ∀ t n w, a = .resident t n w → t ≠ 0x70 ∧ t ≠ 0xA0) ∧ v[8]? = some 3 ∧ v[9]? = some minor ∧ minor ≠ 0

theorem supported_iff (s : FileRecordSegment) : checkVersionLoop s.attributesGen.err s.attributesGen.items = .ok () ↔ VolumeRecord s := by
  refine ⟨fun h => checkVersionLoop_ok h, fun h => ?_⟩
  obtain ⟨before, name, v, after, minor, h1, h2, h3, h4, h5⟩ := h
  rw [h1]
  clear h1
  induction before with
  | nil =>
    have hm : minor.toNat ≠ 0 := fun hc => h5 (UInt8.toNat_inj.1 (by simpa using hc))
    rw [List.nil_append]
    unfold checkVersionLoop
    rw [if_neg (by decide), if_pos rfl, unpack_one, unpack_one, h3, h4]
    dsimp only
    rw [if_neg (by decide), if_neg (by omega)]
  | cons x xs ih =>
    have ih := ih (fun a ha => h2 a (List.mem_cons_of_mem _ ha))
    rw [List.cons_append]
    cases x with
    | nonresident => unfold checkVersionLoop; exact ih
    | resident t n w =>
      have hx := h2 _ (List.mem_cons_self ..) t n w rfl
      unfold checkVersionLoop
      rw [if_neg hx.2, if_neg hx.1]
      exact ih

/-- The size of a segment that the first segment of a file table gives. -/
def statedSize (file : Bytes) : Nat := leNat (slice file 28 32)

/-- C125: a file is opened as a file table exactly when it begins with `FILE`, the segment size of its first
segment is 1024 or 4096, and its fourth segment (number 3) is valid and describes a volume of a supported version;
this does not depend on whether the first pass is asked for. -/
theorem C125_opened_iff (file : Bytes) (pass : Bool) :
    (∃ p, Parser.init file pass = .ok p) ↔
      slice file 0 4 = "FILE".toUTF8.toList ∧ (statedSize file = 1024 ∨ statedSize file = 4096) ∧
      ∃ third, FileRecordSegment.init (slice file (3 * statedSize file) (4 * statedSize file)) true (some 3) = .ok third ∧
        VolumeRecord third := by
  have hsig : "FILE".toUTF8.toList = multiSectorHeaderSignatureGood := by decide +kernel
  rw [hsig]
  unfold Parser.init statedSize
  dsimp only
  by_cases h1 : slice file 0 4 ≠ multiSectorHeaderSignatureGood
  · rw [if_pos h1]
    exact ⟨(fun ⟨_, h⟩ => by cases h), fun h => absurd h.1 h1⟩
  rw [if_neg h1]
  by_cases h2 : (slice file 28 32).length ≠ 4
  · rw [if_pos h2]
    refine ⟨(fun ⟨_, h⟩ => by cases h), fun ⟨_, hs, third, ht, _⟩ => ?_⟩
    exfalso
    have hl := slice_length file 28 32
    have hl2 := slice_length file (3 * leNat (slice file 28 32)) (4 * leNat (slice file 28 32))
    unfold FileRecordSegment.init at ht
    rw [if_pos (by rw [mem_sizes]; omega)] at ht
    cases ht
  rw [if_neg h2]
  by_cases h3 : leNat (slice file 28 32) ∉ fileRecordSegmentSizesSupported
  · rw [if_pos h3]
    exact ⟨(fun ⟨_, h⟩ => by cases h), fun ⟨_, hs, _⟩ => absurd (mem_sizes.2 hs) h3⟩
  rw [if_neg h3]
  have h3 := mem_sizes.1 (Decidable.not_not.1 h3)
  have h4 : 3 * leNat (slice file 28 32) + leNat (slice file 28 32) = 4 * leNat (slice file 28 32) := by omega
  generalize leNat (slice file 28 32) = size at *
  have hseg : (Parser.mk file size []).getSegment 3 =
      if 3 * size > file.length then .error .MasterFileTableException
      else FileRecordSegment.init (slice file (3 * size) (4 * size)) true (some 3) := by
    unfold Parser.getSegment
    dsimp only
    rw [h4]
  rw [hseg]
  by_cases h5 : 3 * size > file.length
  · rw [if_pos h5]
    refine ⟨(fun ⟨_, h⟩ => by cases h), fun ⟨_, _, third, ht, _⟩ => ?_⟩
    exfalso
    have hl2 := slice_length file (3 * size) (4 * size)
    unfold FileRecordSegment.init at ht
    rw [if_pos (by rw [mem_sizes]; omega)] at ht
    cases ht
  rw [if_neg h5]
  cases hi : FileRecordSegment.init (slice file (3 * size) (4 * size)) true (some 3) with
  | error e => exact ⟨(fun ⟨_, h⟩ => by cases h), fun ⟨_, _, _, h, _⟩ => by cases h⟩
  | ok third =>
    dsimp only
    cases hc : checkVersionLoop third.attributesGen.err third.attributesGen.items with
    | error e =>
      refine ⟨(fun ⟨_, h⟩ => by cases h), fun ⟨_, _, t, h, hv⟩ => ?_⟩
      cases h
      rw [(supported_iff third).2 hv] at hc
      cases hc
    | ok u =>
      refine ⟨fun _ => ⟨Decidable.not_not.1 h1, h3, third, rfl, (supported_iff third).1 hc⟩, fun _ => ?_⟩
      dsimp only
      cases pass with
      | false => exact ⟨_, rfl⟩
      | true =>
        obtain ⟨cache, hf, -⟩ := firstPassLoop_spec file size (by omega) 0 [] 0 0 (Nat.zero_le _) List.nodup_nil (fun _ => rfl) rfl rfl
        rw [if_pos rfl, hf]
        exact ⟨_, rfl⟩

/-- C125: every exception of opening a file table is one of the exceptions of file tables, unless the record 3 has a
resident index allocation attribute (`AttributeError`) or a volume information attribute of less than ten bytes
(`struct.error`). -/
theorem C125_errors (file : Bytes) (pass : Bool) (e : Exc) (h : Parser.init file pass = .error e) :
    e ∈ mftExceptions ∨
      ∃ third, FileRecordSegment.init (slice file (3 * statedSize file) (4 * statedSize file)) true (some 3) = .ok third ∧
        ((e = .AttributeError ∧ ∃ n v, .resident 0xA0 n v ∈ third.attributesGen.items) ∨
         (e = .StructError ∧ ∃ n v, .resident 0x70 n v ∈ third.attributesGen.items ∧ v.length < 10)) := by
  unfold Parser.init at h
  unfold statedSize
  dsimp only at h
  split at h
  · cases h; exact .inl (by decide)
  split at h
  · cases h; exact .inl (by decide)
  split at h
  · cases h; exact .inl (by decide)
  rename_i h3
  have h3 := mem_sizes.1 (Decidable.not_not.1 h3)
  have h4 : 3 * leNat (slice file 28 32) + leNat (slice file 28 32) = 4 * leNat (slice file 28 32) := by omega
  generalize leNat (slice file 28 32) = size at *
  unfold Parser.getSegment at h
  dsimp only at h
  rw [h4] at h
  by_cases h5 : 3 * size > file.length
  · rw [if_pos h5] at h; cases h; exact .inl (by decide)
  rw [if_neg h5] at h
  cases hi : FileRecordSegment.init (slice file (3 * size) (4 * size)) true (some 3) with
  | error e' =>
    rw [hi] at h; cases h
    exact .inl (mem_mftExceptions (isMftExc_init hi))
  | ok third =>
    rw [hi] at h
    dsimp only at h
    cases hc : checkVersionLoop third.attributesGen.err third.attributesGen.items with
    | error e' =>
      rw [hc] at h
      cases h
      rcases checkVersionLoop_error (fun e he => attributesGen_err hi he) hc with h | h | h
      · exact .inl h
      · exact .inr ⟨third, rfl, .inl h⟩
      · exact .inr ⟨third, rfl, .inr h⟩
    | ok u =>
      rw [hc] at h
      dsimp only at h
      cases pass with
      | false => cases h
      | true =>
        obtain ⟨cache, hf, -⟩ := firstPassLoop_spec file size (by omega) 0 [] 0 0 (Nat.zero_le _) List.nodup_nil (fun _ => rfl) rfl rfl
        rw [if_pos rfl, hf] at h
        cases h

/-- C125: when the volume record has no resident index allocation attribute and no volume
information attribute of less than ten bytes, opening a file ends normally or with an exception of file tables. -/
theorem C125_declared (file : Bytes) (pass : Bool) (e : Exc) (h : Parser.init file pass = .error e)
    (hthird : ∀ third, FileRecordSegment.init (slice file (3 * statedSize file) (4 * statedSize file)) true (some 3) = .ok third →
      ∀ t n v, .resident t n v ∈ third.attributesGen.items → t ≠ 0xA0 ∧ (t = 0x70 → 10 ≤ v.length)) : e ∈ mftExceptions := by
  rcases C125_errors file pass e h with h | ⟨third, ht, ⟨-, n, v, hm⟩ | ⟨-, n, v, hm, hl⟩⟩
  · exact h
  · exact absurd rfl (hthird third ht _ _ _ hm).1
  · have := (hthird third ht _ _ _ hm).2 rfl; omega

/-- A table with the given attribute in the volume record. -/
def oddTable (attr : Bytes) : Bytes := [plainSegment 0, plainSegment 1, plainSegment 2, mkSegment 3 3 1 0 0 [attr]].flatten

theorem parser_error_of_map {file : Bytes} {pass : Bool} {e : Exc} (h : (Parser.init file pass).map (fun p => p.size) = .error e) :
    Parser.init file pass = .error e := error_of_map h

/-- The full claim (only exceptions of file tables) is false of the code: `AttributeError`. -/
theorem C125_attribute_error : Parser.init (oddTable (mkAttr 0xA0 [1, 2, 3])) true = .error .AttributeError :=
  parser_error_of_map (by decide +kernel)

/-- The full claim is false of the code: `struct.error`. -/
theorem C125_struct_error : Parser.init (oddTable (mkAttr 0x70 (zeros 8))) true = .error .StructError :=
  parser_error_of_map (by decide +kernel)

/-- Not vacuous: a table of version 3.1 is opened, one of version 1.2 is refused. -/
example : (∃ p, Parser.init (oddTable (mkAttr 0x70 (zeros 8 ++ [3, 1]))) false = .ok p) ∧
    Parser.init (oddTable (mkAttr 0x70 (zeros 8 ++ [1, 2]))) false = .error .MasterFileTableException := by
  refine ⟨?_, parser_error_of_map (by decide +kernel)⟩
  have h : (Parser.init (oddTable (mkAttr 0x70 (zeros 8 ++ [3, 1]))) false).map (fun p => p.size) = .ok 1024 := by decide +kernel
  cases hp : Parser.init (oddTable (mkAttr 0x70 (zeros 8 ++ [3, 1]))) false with
  | ok p => exact ⟨p, rfl⟩
  | error e => rw [hp] at h; cases h

end Verif.Props
