/-
The rows of `ntfs_parser --mft` (used for C98).
-/
import Verif.Proof.Tables
import Verif.Spec.MftTable
import Verif.Props.C16_C20
import Verif.Props.C21
import Verif.Props.C51_C52
import Verif.Props.C75
namespace Verif.Props
open Verif.MFT Verif.Attributes Verif.Spec.Parser Verif.Scripts Verif.Spec.MftTable

/-! ### Fields -/

theorem unpack_of_ok {n : Nat} {b : Bytes} {v : Nat} (h : unpackLE n b = .ok v) : b.length = n ∧ v = leNat b := by
  unfold unpackLE at h
  split at h
  · cases h; exact ⟨by assumption, rfl⟩
  · cases h

theorem slice_of_drop (v : Bytes) (k i j : Nat) : slice (v.drop k) i j = slice v (k + i) (k + j) := by
  simp only [slice, List.drop_drop]
  rw [show k + j - (k + i) = j - i by omega]

theorem timeField_iff (v : Bytes) (i : Nat) (t : Option Nat) : timeField v i = .ok t ↔ i + 8 ≤ v.length ∧ t = decodeFiletime (leNat (slice v i (i + 8))) := by
  unfold timeField
  have hl := slice_length v i (i + 8)
  by_cases h : i + 8 ≤ v.length
  · rw [unpackLE_of_length (by omega)]
    constructor
    · intro h'; cases h'; exact ⟨h, rfl⟩
    · rintro ⟨-, rfl⟩; rfl
  · constructor
    · intro h'
      split at h'
      · cases h'
      · rename_i heq
        have := (unpack_of_ok heq).1
        omega
    · rintro ⟨h', -⟩; exact absurd h' h

theorem timeField_drop (v : Bytes) (k i : Nat) (t : Option Nat) (h : timeField (v.drop k) i = .ok t) :
    t = decodeFiletime (leNat (slice v (k + i) (k + i + 8))) := by
  rw [((timeField_iff _ _ _).1 h).2, slice_of_drop, Nat.add_assoc]

theorem timeField_ok {v : Bytes} {i : Nat} (h : i + 8 ≤ v.length) : timeField v i = .ok (decodeFiletime (leNat (slice v i (i + 8)))) :=
  (timeField_iff v i _).2 ⟨h, rfl⟩

theorem fileNameTimes_of_ok {v : Bytes} {l : List Cell} (h : fileNameTimes v = .ok l) : l = nameTimes v := by
  unfold fileNameTimes at h
  dsimp only at h
  cases h1 : diMtime (fileNameInformation v) with
  | error e => rw [h1] at h; cases h
  | ok m =>
  cases h2 : diAtime (fileNameInformation v) with
  | error e => rw [h1, h2] at h; cases h
  | ok a =>
  cases h3 : diCtime (fileNameInformation v) with
  | error e => rw [h1, h2, h3] at h; cases h
  | ok c =>
  cases h4 : diEtime (fileNameInformation v) with
  | error e => rw [h1, h2, h3, h4] at h; cases h
  | ok t =>
  rw [h1, h2, h3, h4] at h
  cases h
  rw [timeField_drop v 8 _ _ h1, timeField_drop v 8 _ _ h2, timeField_drop v 8 _ _ h3, timeField_drop v 8 _ _ h4]
  rfl

theorem fileNameTimes_ok {v : Bytes} (h : 66 ≤ v.length) : fileNameTimes v = .ok (nameTimes v) := by
  have hd : (fileNameInformation v).length = v.length - 8 := by unfold fileNameInformation; simp
  cases hx : fileNameTimes v with
  | ok l => rw [fileNameTimes_of_ok hx]
  | error e =>
    unfold fileNameTimes diMtime diAtime diCtime diEtime at hx
    dsimp only at hx
    rw [timeField_ok (by omega), timeField_ok (by omega), timeField_ok (by omega), timeField_ok (by omega)] at hx
    cases hx

theorem isDirectory_of_ok {v : Bytes} {b : Bool} (h : fileNameIsDirectory v = .ok b) : b = nameIsDirectory v := by
  unfold fileNameIsDirectory diFileAttributes at h
  cases hx : unpackLE 4 (slice (fileNameInformation v) 48 52) with
  | error e => rw [hx] at h; cases h
  | ok a =>
    rw [hx] at h
    cases h
    rw [(unpack_of_ok hx).2]
    unfold fileNameInformation nameIsDirectory
    rw [slice_of_drop]
    rw [Bool.eq_iff_iff, decide_eq_true_iff]
    exact and_two_pow_pos _ 28

theorem isDirectory_ok {v : Bytes} (h : 66 ≤ v.length) : fileNameIsDirectory v = .ok (nameIsDirectory v) := by
  cases hx : fileNameIsDirectory v with
  | ok b => rw [isDirectory_of_ok hx]
  | error e =>
    unfold fileNameIsDirectory diFileAttributes fileNameInformation at hx
    rw [unpackLE_of_length (by rw [slice_length, List.length_drop]; omega)] at hx
    cases hx

theorem size_of_ok {v : Bytes} {n : Int} (h : diFileSize (fileNameInformation v) = .ok n) : n = nameSize v := by
  unfold diFileSize signedField at h
  split at h
  · cases h
    unfold fileNameInformation nameSize
    rw [slice_of_drop]
  · cases h

theorem size_ok {v : Bytes} (h : 66 ≤ v.length) : diFileSize (fileNameInformation v) = .ok (nameSize v) := by
  unfold diFileSize signedField fileNameInformation
  rw [slice_of_drop, if_pos (by rw [slice_length]; omega)]
  rfl

theorem name_of_ok {v : Bytes} {s : Str} (h : fileNameName v = .ok s) : s = nameOf v := by
  unfold fileNameName at h
  split at h
  · cases h
  · rename_i heq
    cases h
    rw [(unpack_of_ok heq).2]
    rfl

theorem name_ok {v : Bytes} (h : 66 ≤ v.length) : fileNameName v = .ok (nameOf v) := by
  cases hx : fileNameName v with
  | ok s => rw [name_of_ok hx]
  | error e =>
    unfold fileNameName at hx
    rw [unpackLE_of_length (by rw [slice_length]; omega)] at hx
    cases hx

theorem source_eq (kind : String) (hk : Str.ofString kind ≠ []) (tag : Option Str) : Cell.str (formatSource (Str.ofString kind) tag) = source kind tag := by
  unfold formatSource source
  rw [if_neg (by rw [List.length_eq_zero_iff]; exact hk)]
  cases tag with
  | none => rfl
  | some t => cases t <;> rfl

theorem pathIn_eq (d : Option Str) (name : Str) : pathIn d name = inDirectory d name := by
  unfold pathIn inDirectory
  cases d with
  | none => rfl
  | some d => rfl

theorem standardColumns_of_ok {c : Collected} {l : List Cell} (h : standardColumns c = .ok l) : l = standardCells c.standardInformation := by
  unfold standardColumns at h
  cases hs : c.standardInformation with
  | none => rw [hs] at h; cases h; rfl
  | some v =>
    rw [hs] at h
    dsimp only at h
    cases h1 : siMtime v with
    | error e => rw [h1] at h; cases h
    | ok m =>
    cases h2 : siAtime v with
    | error e => rw [h1, h2] at h; cases h
    | ok a =>
    cases h3 : siCtime v with
    | error e => rw [h1, h2, h3] at h; cases h
    | ok cr =>
    cases h4 : siEtime v with
    | error e => rw [h1, h2, h3, h4] at h; cases h
    | ok t =>
    rw [h1, h2, h3, h4] at h
    cases h
    rw [((timeField_iff _ _ _).1 h1).2, ((timeField_iff _ _ _).1 h2).2, ((timeField_iff _ _ _).1 h3).2, ((timeField_iff _ _ _).1 h4).2]
    unfold standardCells siUsn optionalField
    have hl := slice_length v 64 (64 + 8)
    by_cases h72 : 72 ≤ v.length
    · rw [if_pos (by omega)]; dsimp only; rw [if_pos h72]; rfl
    · rw [if_neg (by omega)]; dsimp only; rw [if_neg h72]; rfl

theorem standardColumns_ok {c : Collected} (h : ∀ v, c.standardInformation = some v → 32 ≤ v.length) :
    standardColumns c = .ok (standardCells c.standardInformation) := by
  cases hx : standardColumns c with
  | ok l => rw [standardColumns_of_ok hx]
  | error e =>
    unfold standardColumns at hx
    cases hs : c.standardInformation with
    | none => rw [hs] at hx; cases hx
    | some v =>
      have h32 := h v hs
      rw [hs] at hx
      dsimp only at hx
      unfold siMtime siAtime siCtime siEtime at hx
      rw [timeField_ok (by omega), timeField_ok (by omega), timeField_ok (by omega), timeField_ok (by omega)] at hx
      cases hx

/-! ### The loop over the attributes -/

theorem strLt_iff : ∀ s t : Str, strLt s t = true ↔ s < t
  | s, [] => by unfold strLt; simp
  | [], _ :: _ => by unfold strLt; simp
  | a :: s, b :: t => by
    unfold strLt
    rw [List.cons_lt_cons_iff]
    by_cases h : a = b
    · rw [if_pos h, strLt_iff s t]
      subst h
      simp
    · rw [if_neg h, decide_eq_true_iff]
      simp [h]

theorem insertStr_mem (s n : Str) : ∀ l, n ∈ insertStr s l ↔ n = s ∨ n ∈ l
  | [] => by simp [insertStr]
  | t :: l => by
    unfold insertStr
    split
    · rename_i h; subst h; simp
    · split
      · simp
      · simp only [List.mem_cons, insertStr_mem s n l]
        constructor
        · rintro (h | h | h) <;> simp [h]
        · rintro (h | h | h) <;> simp [h]

theorem insertStr_sorted (s : Str) : ∀ l : List Str, l.Pairwise (· < ·) → (insertStr s l).Pairwise (· < ·)
  | [], _ => by simp [insertStr]
  | t :: l, h => by
    unfold insertStr
    rw [List.pairwise_cons] at h
    split
    · exact List.pairwise_cons.2 h
    · rename_i hne
      split
      · rename_i hlt
        have hlt := (strLt_iff s t).1 hlt
        refine List.pairwise_cons.2 ⟨fun x hx => ?_, List.pairwise_cons.2 h⟩
        rcases List.mem_cons.1 hx with rfl | hx
        · exact hlt
        · exact List.lt_trans hlt (h.1 x hx)
      · rename_i hlt
        have hlt : ¬ s < t := fun hc => hlt ((strLt_iff s t).2 hc)
        refine List.pairwise_cons.2 ⟨fun x hx => ?_, insertStr_sorted s l h.2⟩
        rcases (insertStr_mem s x l).1 hx with rfl | hx
        · rcases List.le_total t x with hh | hh
          · rcases Decidable.em (t < x) with h' | h'
            · exact h'
            · exact absurd (List.le_antisymm (List.not_lt.1 h') hh) hne
          · rcases Decidable.em (t < x) with h' | h'
            · exact h'
            · exact absurd (List.le_antisymm (List.not_lt.1 h') (List.not_lt.1 hlt)) hne
        · exact h.1 x hx

theorem sortedSet_spec (l : List Str) : (sortedSet l).Pairwise (· < ·) ∧ ∀ n, n ∈ sortedSet l ↔ n ∈ l := by
  induction l with
  | nil => exact ⟨List.Pairwise.nil, fun n => Iff.rfl⟩
  | cons s l ih =>
    refine ⟨insertStr_sorted s _ ih.1, fun n => ?_⟩
    show n ∈ insertStr s (sortedSet l) ↔ _
    rw [insertStr_mem, ih.2, List.mem_cons]

theorem lxattrb_cases (ea : ExtendedAttribute) (hn : ea.name = [0x4C, 0x58, 0x41, 0x54, 0x54, 0x52, 0x42, 0]) :
    (IsLinux ea ∧ WSL.lxattrb ea.value = .ok ea.value) ∨ (¬ IsLinux ea ∧ WSL.lxattrb ea.value = .error .ValueError) := by
  obtain ⟨h1, h2, -⟩ := C52_lxattrb ea.value
  by_cases h : WSL.lxattrb ea.value = .ok ea.value
  · exact .inl ⟨⟨hn, h1.1 h⟩, h⟩
  · exact .inr ⟨fun hc => h (h1.2 hc.2), h2 h⟩

/-- The timestamps of the last valid LXATTRB. -/
theorem collectWsl_of_ok : ∀ (l : List ExtendedAttribute) (found x : Option (Nat × Nat × Nat)), collectWsl l found = .ok x →
    x = (l.reverse.findSome? linuxTimesOf).or found
  | [], found, x, h => by cases h; rfl
  | ea :: l, found, x, h => by
    unfold collectWsl at h
    rw [List.reverse_cons, List.findSome?_append]
    by_cases hn : ea.name = [0x4C, 0x58, 0x41, 0x54, 0x54, 0x52, 0x42, 0]
    · rw [if_pos hn] at h
      rcases lxattrb_cases ea hn with ⟨hl, h2⟩ | ⟨hl, h2⟩
      · rw [h2] at h
        dsimp only at h
        cases h3 : WSL.atime ea.value with
        | error e => rw [h3] at h; cases h
        | ok a =>
        cases h4 : WSL.mtime ea.value with
        | error e => rw [h3, h4] at h; cases h
        | ok m =>
        cases h5 : WSL.chtime ea.value with
        | error e => rw [h3, h4, h5] at h; cases h
        | ok c =>
        rw [h3, h4, h5] at h
        have := collectWsl_of_ok l _ x h
        rw [this]
        have he : linuxTimesOf ea = some (m, a, c) := by
          unfold linuxTimesOf
          rw [if_pos hl, h3, h4, h5]
        rw [List.findSome?_cons, he]
        cases l.reverse.findSome? linuxTimesOf <;> rfl
      · rw [h2] at h
        dsimp only at h
        have := collectWsl_of_ok l _ x h
        rw [this, List.findSome?_cons, show linuxTimesOf ea = none by unfold linuxTimesOf; rw [if_neg hl]]
        cases l.reverse.findSome? linuxTimesOf <;> rfl
    · rw [if_neg hn] at h
      have := collectWsl_of_ok l _ x h
      have hl : ¬ IsLinux ea := fun hc => hn hc.1
      rw [this, List.findSome?_cons, show linuxTimesOf ea = none by unfold linuxTimesOf; rw [if_neg hl]]
      cases l.reverse.findSome? linuxTimesOf <;> rfl

theorem collectWsl_ok : ∀ (l : List ExtendedAttribute) (found : Option (Nat × Nat × Nat)), (∀ ea ∈ l, IsLinux ea → linuxTimesOf ea ≠ none) →
    ∃ x, collectWsl l found = .ok x
  | [], found, _ => ⟨found, rfl⟩
  | ea :: l, found, h => by
    unfold collectWsl
    have ih := fun f => collectWsl_ok l f fun x hx => h x (by simp [hx])
    by_cases hn : ea.name = [0x4C, 0x58, 0x41, 0x54, 0x54, 0x52, 0x42, 0]
    · rw [if_pos hn]
      rcases lxattrb_cases ea hn with ⟨hl, h2⟩ | ⟨hl, h2⟩
      · rw [h2]
        dsimp only
        have hx := h ea (by simp) hl
        unfold linuxTimesOf at hx
        rw [if_pos hl] at hx
        cases h3 : WSL.atime ea.value with
        | error e => rw [h3] at hx; cases h4 : WSL.mtime ea.value <;> rw [h4] at hx <;> exact absurd rfl hx
        | ok a =>
        cases h4 : WSL.mtime ea.value with
        | error e => rw [h4] at hx; exact absurd rfl hx
        | ok m =>
        cases h5 : WSL.chtime ea.value with
        | error e => rw [h3, h4, h5] at hx; exact absurd rfl hx
        | ok c => exact ih _
      · rw [h2]; exact ih _
    · rw [if_neg hn]; exact ih _

/-- What the loop has collected. -/
structure CollectedFrom (attrs : List AttributeRecord) (c0 c : Collected) : Prop where
  standard : c.standardInformation = c0.standardInformation.or (attrs.findSome? standardValue)
  size : c.fileSize = c0.fileSize.or (attrs.findSome? unnamedSize)
  streams : ∀ n, n ∈ c.streams ↔ n ∈ c0.streams ∨ ∃ a ∈ attrs, streamName a = some n
  time : c.objectTime = c0.objectTime.or (attrs.findSome? objectTime)
  linux : c.wsl = c0.wsl.or (attrs.findSome? linuxTimes)

theorem CollectedFrom.step {a : AttributeRecord} {rest : List AttributeRecord} {c0 c1 c : Collected} (h : CollectedFrom rest c1 c)
    (h1 : c1.standardInformation = c0.standardInformation.or (standardValue a)) (h2 : c1.fileSize = c0.fileSize.or (unnamedSize a))
    (h3 : ∀ n, n ∈ c1.streams ↔ n ∈ c0.streams ∨ streamName a = some n) (h4 : c1.objectTime = c0.objectTime.or (objectTime a))
    (h5 : c1.wsl = c0.wsl.or (linuxTimes a)) : CollectedFrom (a :: rest) c0 c := by
  have key : ∀ {β : Type} (f : AttributeRecord → Option β), (a :: rest).findSome? f = (f a).or (rest.findSome? f) := by
    intro β f
    rw [List.findSome?_cons]
    cases f a <;> rfl
  refine ⟨?_, ?_, fun n => ?_, ?_, ?_⟩
  · rw [h.standard, h1, key, Option.or_assoc]
  · rw [h.size, h2, key, Option.or_assoc]
  · rw [h.streams, h3]
    simp only [List.mem_cons, exists_eq_or_imp]
    rw [or_assoc]
  · rw [h.time, h4, key, Option.or_assoc]
  · rw [h.linux, h5, key, Option.or_assoc]

theorem standardValue_resident (t : Nat) (n : Option Bytes) (v : Bytes) : standardValue (.resident t n v) = if t = 0x10 then some v else none := by
  by_cases h : t = 0x10
  · subst h; rfl
  · rw [if_neg h]; unfold standardValue; split
    · rename_i heq; injection heq with h1; exact absurd h1 h
    · rfl

theorem objectTime_resident (t : Nat) (n : Option Bytes) (v : Bytes) : objectTime (.resident t n v) = if t = 0x40 then objectIdTimestamp v else none := by
  by_cases h : t = 0x40
  · subst h; rfl
  · rw [if_neg h]; unfold objectTime; split
    · rename_i heq; injection heq with h1; exact absurd h1 h
    · rfl

theorem linuxTimes_resident (t : Nat) (n : Option Bytes) (v : Bytes) :
    linuxTimes (.resident t n v) = if t = 0xE0 then (eaParsed v).reverse.findSome? linuxTimesOf else none := by
  by_cases h : t = 0xE0
  · subst h; rfl
  · rw [if_neg h]; unfold linuxTimes; split
    · rename_i heq; injection heq with h1; exact absurd h1 h
    · rfl

theorem unnamedSize_resident (t : Nat) (n : Option Bytes) (v : Bytes) :
    unnamedSize (.resident t n v) = if t = 0x80 ∧ n = none then some (v.length : Int) else none := by
  by_cases h : t = 0x80 ∧ n = none
  · rw [if_pos h]; obtain ⟨rfl, rfl⟩ := h; rfl
  · rw [if_neg h]; unfold unnamedSize; split
    · rename_i heq; injection heq with h1 h2; exact absurd ⟨h1, h2⟩ h
    · rename_i heq; cases heq
    · rfl

theorem unnamedSize_nonresident (t : Nat) (n : Option Bytes) (m : Bytes) (lo hi : Nat) (size : Int) (runs : List Run) :
    unnamedSize (.nonresident t n m lo hi size runs) = if t = 0x80 ∧ n = none ∧ lo = 0 then some size else none := by
  by_cases h : t = 0x80 ∧ n = none ∧ lo = 0
  · rw [if_pos h]; obtain ⟨rfl, rfl, rfl⟩ := h; rfl
  · rw [if_neg h]; unfold unnamedSize; split
    · rename_i heq; cases heq
    · rename_i heq; injection heq with h1 h2 h3 h4; exact absurd ⟨h1, h2, h4⟩ h
    · rfl

theorem streamName_eq (a : AttributeRecord) : streamName a = if a.typeCode = 0x80 then a.name else none := by
  cases a with
  | resident t n v =>
    by_cases h : t = 0x80
    · subst h; cases n <;> rfl
    · rw [if_neg (show ¬ (AttributeRecord.resident t n v).typeCode = 0x80 from h)]; unfold streamName; split
      · rename_i heq; injection heq with h1; exact absurd h1 h
      · rename_i heq; cases heq
      · rfl
  | nonresident t n m lo hi size runs =>
    by_cases h : t = 0x80
    · subst h; cases n <;> rfl
    · rw [if_neg (show ¬ (AttributeRecord.nonresident t n m lo hi size runs).typeCode = 0x80 from h)]; unfold streamName; split
      · rename_i heq; cases heq
      · rename_i heq; injection heq with h1; exact absurd h1 h
      · rfl

theorem or_ite {β : Type} (o : Option β) (c : Prop) [Decidable c] (x : Option β) :
    (if c ∧ o = none then x else o) = o.or (if c then x else none) := by
  cases o with
  | some y => rw [if_neg (fun h => by cases h.2)]; rfl
  | none =>
    by_cases h : c
    · rw [if_pos ⟨h, rfl⟩, if_pos h]; rfl
    · rw [if_neg (fun hc => h hc.1), if_neg h]; rfl

/-- The state after a resident attribute. -/
def afterResident (t : Nat) (name : Option Bytes) (v : Bytes) (wsl : Option (Nat × Nat × Nat)) (c : Collected) : Collected where
  standardInformation := if t = 0x10 ∧ c.standardInformation = none then some v else c.standardInformation
  fileSize := if (t = 0x80 ∧ name = none) ∧ c.fileSize = none then some (v.length : Int) else c.fileSize
  streams := match name.map utf16Decode with
    | some n => if t = 0x80 then n :: c.streams else c.streams
    | none => c.streams
  objectTime := if t = 0x40 ∧ c.objectTime = none then objectIdTimestamp v else c.objectTime
  wsl := wsl

/-- The state after a nonresident attribute. -/
def afterNonresident (t : Nat) (name : Option Bytes) (lo : Nat) (size : Int) (c : Collected) : Collected where
  standardInformation := c.standardInformation
  fileSize := if (t = 0x80 ∧ name = none ∧ lo = 0) ∧ c.fileSize = none then some size else c.fileSize
  streams := match name.map utf16Decode with
    | some n => if t = 0x80 then n :: c.streams else c.streams
    | none => c.streams
  objectTime := c.objectTime
  wsl := c.wsl

theorem collect_resident (err : Option Exc) (t : Nat) (name : Option Bytes) (v : Bytes) (rest : List AttributeRecord) (c : Collected) (h : t ≠ 0xA0) :
    collect err (.resident t name v :: rest) c =
      match (if t = 0xE0 ∧ c.wsl = none then collectWsl (eaParsed v) none else .ok c.wsl) with
      | .error e => .error e
      | .ok wsl => collect err rest (afterResident t name v wsl c) := by
  obtain ⟨si, fs, st, ot, w⟩ := c
  rw [collect, if_neg h]
  by_cases h1 : t = 0x10
  · subst h1
    cases si <;> cases name <;> simp [afterResident, AttributeRecord.name, bind, Except.bind]
  by_cases h2 : t = 0x40
  · subst h2
    cases ot <;> cases name <;> simp [afterResident, AttributeRecord.name, bind, Except.bind]
  by_cases h3 : t = 0x80
  · subst h3
    cases fs <;> cases name <;> simp [afterResident, AttributeRecord.name, bind, Except.bind]
  by_cases h4 : t = 0xE0
  · subst h4
    cases w <;> cases name <;> simp [afterResident, AttributeRecord.name, bind, Except.bind] <;>
      cases collectWsl (eaParsed v) none <;> rfl
  · cases name <;> simp [afterResident, AttributeRecord.name, bind, Except.bind, h1, h2, h3, h4]

theorem collect_nonresident (err : Option Exc) (t : Nat) (name : Option Bytes) (m : Bytes) (lo hi : Nat) (size : Int) (runs : List Run)
    (rest : List AttributeRecord) (c : Collected) :
    collect err (.nonresident t name m lo hi size runs :: rest) c = collect err rest (afterNonresident t name lo size c) := by
  obtain ⟨si, fs, st, ot, w⟩ := c
  rw [collect]
  by_cases h3 : t = 0x80
  · subst h3
    by_cases h0 : lo = 0
    · subst h0; cases fs <;> cases name <;> simp [afterNonresident, AttributeRecord.name]
    · cases fs <;> cases name <;> simp [afterNonresident, AttributeRecord.name, h0]
  · cases name <;> simp [afterNonresident, AttributeRecord.name, h3]

theorem streams_step (a : AttributeRecord) (t : Nat) (ht : a.typeCode = t) (name : Option Bytes) (hn : a.name = name.map utf16Decode) (l : List Str) (n : Str) :
    (n ∈ (match name.map utf16Decode with
      | some n => if t = 0x80 then n :: l else l
      | none => l)) ↔ n ∈ l ∨ streamName a = some n := by
  rw [streamName_eq, ht, hn]
  cases name.map utf16Decode with
  | none => simp
  | some m =>
    by_cases h : t = 0x80
    · simp [h, or_comm, eq_comm]
    · simp [h]

theorem collect_of_ok (err : Option Exc) : ∀ (attrs : List AttributeRecord) (c0 c : Collected), collect err attrs c0 = .ok c → CollectedFrom attrs c0 c
  | [], c0, c, h => by
    cases err with
    | some e => cases h
    | none => cases h; exact ⟨by simp, by simp, by simp, by simp, by simp⟩
  | .resident t name v :: rest, c0, c, h => by
    by_cases hA : t = 0xA0
    · subst hA; cases h
    rw [collect_resident _ _ _ _ _ _ hA] at h
    split at h
    · cases h
    · rename_i wsl hw
      refine (collect_of_ok err rest _ c h).step ?_ ?_ ?_ ?_ ?_
      · rw [standardValue_resident]; exact or_ite _ _ _
      · rw [unnamedSize_resident]; exact or_ite _ _ _
      · exact streams_step _ t rfl name rfl _
      · rw [objectTime_resident]; exact or_ite _ _ _
      · rw [linuxTimes_resident]
        show wsl = _
        by_cases he : t = 0xE0
        · rw [if_pos he]
          cases hc : c0.wsl with
          | none =>
            rw [if_pos ⟨he, hc⟩] at hw
            rw [collectWsl_of_ok _ _ _ hw]
            simp
          | some w =>
            rw [if_neg (fun h => by rw [hc] at h; cases h.2), hc] at hw
            cases hw
            rfl
        · rw [if_neg (fun h => he h.1)] at hw
          cases hw
          rw [if_neg he]
          simp
  | .nonresident t name m lo hi size runs :: rest, c0, c, h => by
    rw [collect_nonresident] at h
    refine (collect_of_ok err rest _ c h).step ?_ ?_ ?_ ?_ ?_
    · show _ = Option.or _ none; simp [afterNonresident]
    · rw [unnamedSize_nonresident]; exact or_ite _ _ _
    · exact streams_step _ t rfl name rfl _
    · show _ = Option.or _ none; simp [afterNonresident]
    · show _ = Option.or _ none; simp [afterNonresident]

theorem collect_ok : ∀ (attrs : List AttributeRecord) (c0 : Collected), (∀ a ∈ attrs, ∀ n v, a ≠ .resident 0xA0 n v) →
    (∀ n v, .resident 0xE0 n v ∈ attrs → ∀ ea ∈ eaParsed v, IsLinux ea → linuxTimesOf ea ≠ none) → ∃ c, collect none attrs c0 = .ok c
  | [], c0, _, _ => ⟨c0, rfl⟩
  | .resident t name v :: rest, c0, h1, h2 => by
    have hA : t ≠ 0xA0 := fun hc => h1 _ (List.mem_cons_self ..) name v (by rw [hc])
    have ih := fun c => collect_ok rest c (fun a ha => h1 a (List.mem_cons_of_mem _ ha)) (fun n v hv => h2 n v (List.mem_cons_of_mem _ hv))
    rw [collect_resident _ _ _ _ _ _ hA]
    split
    · rename_i e hw
      exfalso
      by_cases hc : t = 0xE0 ∧ c0.wsl = none
      · rw [if_pos hc] at hw
        obtain ⟨rfl, -⟩ := hc
        obtain ⟨x, hx⟩ := collectWsl_ok (eaParsed v) none (h2 name v (List.mem_cons_self ..))
        rw [hx] at hw; cases hw
      · rw [if_neg hc] at hw; cases hw
    · exact ih _
  | .nonresident t name m lo hi size runs :: rest, c0, h1, h2 => by
    rw [collect_nonresident]
    exact collect_ok rest _ (fun a ha => h1 a (List.mem_cons_of_mem _ ha)) (fun n v hv => h2 n v (List.mem_cons_of_mem _ hv))

end Verif.Props
