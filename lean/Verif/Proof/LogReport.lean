/-
The report on a log file: the lines of the model are those of the specification.
-/
import Verif.Model.Scripts.Log
import Verif.Spec.LogReport
import Verif.Proof.Decimal
import Verif.Proof.Tables
import Verif.Proof.MoveReport
import Verif.Props.C39_C40
import Verif.Props.C97
import Verif.Props.C98
import Verif.Props.C100
namespace Verif.Proof.LogReport
open Verif.MFT Verif.Attributes Verif.Scripts Verif.Spec.Parser Verif.Spec.LogReport
open Verif.LogFile (redoOperation undoOperation redoData undoData targetAttribute targetBlockSize mftTargetNumber offsetInTarget lcnsForPage
  findFileReference findName nonresidentUpdates residentUpdates)

/-! ### Texts -/

theorem decimal_eq (n : Nat) : decimal n = digits n := by
  induction n using Nat.strongRecOn with
  | _ n ih =>
    rw [Decimal.decimal_step, digits]
    split
    · rfl
    · rw [ih _ (by omega)]

theorem signedDecimal_eq (n : Int) : signedDecimal n = signed n := by
  unfold signedDecimal signed
  split
  · rw [decimal_eq]
    have : n.natAbs = (-n).toNat := by omega
    rw [this]; rfl
  · rw [decimal_eq]
    have : n.natAbs = n.toNat := by omega
    rw [this]

theorem joined_eq : ∀ l : List Str, pyJoin [0x0A] l = joined l
  | [] => rfl
  | [_] => rfl
  | s :: t :: rest => by
    show s ++ [0x0A] ++ pyJoin [0x0A] (t :: rest) = s ++ [0x0A] ++ joined (t :: rest)
    rw [joined_eq]

theorem spaced_eq : ∀ l : List Str, pyJoin (Str.ofString " ") l = spaced l
  | [] => rfl
  | [_] => rfl
  | s :: t :: rest => by
    show s ++ Str.ofString " " ++ pyJoin (Str.ofString " ") (t :: rest) = s ++ Str.ofString " " ++ spaced (t :: rest)
    rw [spaced_eq]

theorem section_eq (l : List Str) : section_ l = sectionText l := by unfold section_ sectionText; rw [joined_eq]

theorem pathLine_eq (label : String) (o : Option Str) : pathLine label o = lineIf label o := by cases o <;> rfl

theorem timeLines_eq (m a c e : Option Nat) : timeLines m a c e = times (filetimeText m) (filetimeText a) (filetimeText c) (filetimeText e) := rfl

theorem area_eq (b : Bytes) (lsn : Nat) : restartAreaLines b lsn = area b lsn := by
  unfold restartAreaLines area
  simp only [decimal_eq, line, List.append_assoc]
  rfl

theorem hexDigit_eq {d : Nat} (h : d < 16) : USN.hexDigit d = if d < 10 then 0x30 + d else 0x57 + d := by
  revert d; decide

theorem pyHex_eq {n : Nat} (h1 : 16 ≤ n) (h2 : n < 65536) :
    USN.pyHex n = Str.ofString "0x" ++ Spec.MoveReport.digits (if n < 0x100 then 2 else if n < 0x1000 then 3 else 4) n := by
  unfold USN.pyHex
  congr 1
  rw [USN.hexDigits, if_neg (by omega)]
  by_cases ha : n < 0x100
  · rw [if_pos ha, USN.hexDigits, if_pos (by omega), hexDigit_eq (by omega), hexDigit_eq (by omega)]
    simp [Spec.MoveReport.digits, List.range_succ]
    rw [show n / 16 % 16 = n / 16 by omega]
  · rw [if_neg ha, USN.hexDigits, if_neg (by omega)]
    by_cases hb : n < 0x1000
    · rw [if_pos hb, USN.hexDigits, if_pos (by omega), hexDigit_eq (by omega), hexDigit_eq (by omega), hexDigit_eq (by omega)]
      simp [Spec.MoveReport.digits, List.range_succ]
      rw [show n / 16 / 16 = n / 256 % 16 by omega]
    · rw [if_neg hb, USN.hexDigits, if_neg (by omega), USN.hexDigits, if_pos (by omega), hexDigit_eq (by omega), hexDigit_eq (by omega),
        hexDigit_eq (by omega), hexDigit_eq (by omega)]
      simp [Spec.MoveReport.digits, List.range_succ]
      rw [show n / 16 / 16 / 16 = n / 4096 % 16 by omega, show n / 16 / 16 = n / 256 by omega]; exact ⟨rfl, rfl⟩

theorem field_lt (b : Bytes) (i : Nat) : field b i 2 < 65536 := by
  unfold field
  have h := leNat_lt (slice b i (i + 2))
  have hl : (slice b i (i + 2)).length ≤ 2 := by rw [slice_length]; omega
  exact Nat.lt_of_lt_of_le h (by
    have := Nat.pow_le_pow_right (n := 256) (by omega) hl
    omega)

theorem operation_eq {n : Nat} (h : n < 65536) : resolveOperation n = operation n := by
  have e : operationNames = operations := rfl
  unfold resolveOperation operation
  rw [e]
  cases ho : operations[n]? with
  | some name => rfl
  | none =>
    have hl : 38 ≤ n := by
      have := List.getElem?_eq_none_iff.1 ho
      exact this
    exact pyHex_eq (by omega) h

/-! ### Operations -/

theorem named {names : List String} {codes : List Nat} (h : ∀ n, n < 38 → ((∃ name ∈ names, operations[n]? = some name) ↔ n ∈ codes))
    (hc : ∀ n ∈ codes, n < 38) (n : Nat) : (∃ name ∈ names, operations[n]? = some name) ↔ n ∈ codes := by
  by_cases hn : n < 38
  · exact h n hn
  · constructor
    · rintro ⟨name, -, ho⟩
      have : operations[n]? = none := List.getElem?_eq_none_iff.2 (show 38 ≤ n by omega)
      rw [this] at ho; cases ho
    · intro hm; exact absurd (hc n hm) hn

theorem onSegments_iff (n : Nat) : (∃ name ∈ onSegments, operations[n]? = some name) ↔ n ∈ residentUpdates :=
  named (by decide +kernel) (by decide +kernel) n
theorem onAttributes_iff (n : Nat) : (∃ name ∈ onAttributes, operations[n]? = some name) ↔ n ∈ nonresidentUpdates :=
  named (by decide +kernel) (by decide +kernel) n
theorem addIndexEntry_iff (n : Nat) : (∃ name ∈ addIndexEntry, operations[n]? = some name) ↔ addsIndexEntry n = true := by
  rw [named (codes := [0x0C, 0x0E, 0x10]) (by decide +kernel) (by decide +kernel) n]
  unfold addsIndexEntry; simp [or_assoc]
theorem updateFileName_iff (n : Nat) : (∃ name ∈ updateFileName, operations[n]? = some name) ↔ updatesFileName n = true := by
  rw [named (codes := [0x13, 0x14]) (by decide +kernel) (by decide +kernel) n]
  unfold updatesFileName; simp

theorem single {name : String} {code : Nat} (h : ∀ n, n < 38 → ((∃ s ∈ [name], operations[n]? = some s) ↔ n ∈ [code])) (hc : code < 38) (n : Nat) :
    (∃ s ∈ [name], operations[n]? = some s) ↔ n = code := by
  rw [named h (by simpa using hc) n]; simp

theorem initialize_iff (n : Nat) : (∃ s ∈ ["InitializeFileRecordSegment"], operations[n]? = some s) ↔ n = 0x02 := single (by decide +kernel) (by decide) n
theorem deallocate_iff (n : Nat) : (∃ s ∈ ["DeallocateFileRecordSegment"], operations[n]? = some s) ↔ n = 0x03 := single (by decide +kernel) (by decide) n
theorem writeEnd_iff (n : Nat) : (∃ s ∈ ["WriteEndOfFileRecordSegment"], operations[n]? = some s) ↔ n = 0x04 := single (by decide +kernel) (by decide) n
theorem create_iff (n : Nat) : (∃ s ∈ ["CreateAttribute"], operations[n]? = some s) ↔ n = 0x05 := single (by decide +kernel) (by decide) n
theorem updateResident_iff (n : Nat) : (∃ s ∈ ["UpdateResidentValue"], operations[n]? = some s) ↔ n = 0x07 := single (by decide +kernel) (by decide) n
theorem updateNonresident_iff (n : Nat) : (∃ s ∈ ["UpdateNonresidentValue"], operations[n]? = some s) ↔ n = 0x08 := single (by decide +kernel) (by decide) n

theorem doesSegments_iff (b : Bytes) : Does b onSegments ↔ redoOperation b ∈ residentUpdates ∨ undoOperation b ∈ residentUpdates :=
  or_congr (onSegments_iff _) (onSegments_iff _)
theorem doesAttributes_iff (b : Bytes) : Does b onAttributes ↔ redoOperation b ∈ nonresidentUpdates ∨ undoOperation b ∈ nonresidentUpdates :=
  or_congr (onAttributes_iff _) (onAttributes_iff _)

/-! ### Data -/

theorem redoData_iff (b d : Bytes) : redoData b = .ok d ↔ IsData b 4 d := by
  show (if field b 6 2 = 0 then Except.ok [] else match (if field b 4 2 > 0 ∧ field b 4 2 < 32 then Except.error Exc.ClientException else .ok (field b 4 2)) with
    | .error e => Except.error e
    | .ok o => .ok (slice b o (o + field b 6 2))) = .ok d ↔ (field b 6 2 = 0 ∧ d = []) ∨
      (field b 6 2 ≠ 0 ∧ (field b 4 2 = 0 ∨ 32 ≤ field b 4 2) ∧ d = slice b (field b 4 2) (field b 4 2 + field b 6 2))
  by_cases h0 : field b 6 2 = 0
  · rw [if_pos h0]; simp [h0, eq_comm]
  · rw [if_neg h0]
    by_cases h1 : field b 4 2 > 0 ∧ field b 4 2 < 32
    · rw [if_pos h1]; simp only [reduceCtorEq, false_iff]; omega
    · rw [if_neg h1]; simp only [Except.ok.injEq]
      constructor
      · rintro rfl; exact .inr ⟨h0, by omega, rfl⟩
      · rintro (⟨h, -⟩ | ⟨-, -, rfl⟩)
        · exact absurd h h0
        · rfl

theorem undoData_iff (b d : Bytes) : undoData b = .ok d ↔ IsData b 8 d := by
  show (if field b 10 2 = 0 then Except.ok [] else match (if field b 8 2 > 0 ∧ field b 8 2 < 32 then Except.error Exc.ClientException else .ok (field b 8 2)) with
    | .error e => Except.error e
    | .ok o => .ok (slice b o (o + field b 10 2))) = .ok d ↔ (field b 10 2 = 0 ∧ d = []) ∨
      (field b 10 2 ≠ 0 ∧ (field b 8 2 = 0 ∨ 32 ≤ field b 8 2) ∧ d = slice b (field b 8 2) (field b 8 2 + field b 10 2))
  by_cases h0 : field b 10 2 = 0
  · rw [if_pos h0]; simp [h0, eq_comm]
  · rw [if_neg h0]
    by_cases h1 : field b 8 2 > 0 ∧ field b 8 2 < 32
    · rw [if_pos h1]; simp only [reduceCtorEq, false_iff]; omega
    · rw [if_neg h1]; simp only [Except.ok.injEq]
      constructor
      · rintro rfl; exact .inr ⟨h0, by omega, rfl⟩
      · rintro (⟨h, -⟩ | ⟨-, -, rfl⟩)
        · exact absurd h h0
        · rfl

theorem lcns_eq (b : Bytes) [Decidable (ClustersInside b)] :
    lcnsForPage b = if ClustersInside b then .ok (clusters b) else .error .ClientException := by
  rw [Props.C39_lcns]
  by_cases h : ClustersInside b
  · rw [if_pos h, if_pos (by exact h)]; rfl
  · rw [if_neg h, if_neg (by exact h)]

/-! ### Paths -/

theorem lookupPath_iff (p : MFT.Parser) (n : Nat) (s : Option Nat) (o : Option Str) : lookupPath p n s = .ok o ↔ IsPath p n s o := by
  unfold lookupPath IsPath fullPaths
  cases hr : p.getRecord n s with
  | error e =>
    by_cases hm : isMftExc e = true
    · simp [hm, @eq_comm _ none]
    · simp [hm]
  | ok r =>
    cases hb : p.buildFullPaths r with
    | none =>
      have : isMftExc .RuntimeError = false := rfl
      simp [hb, this]
    | some x =>
      cases x with
      | error e =>
        by_cases hm : isMftExc e = true
        · simp [hm, hb, @eq_comm _ none]
        · simp [hm, hb]
      | ok l =>
        cases l with
        | nil => simp [hb, @eq_comm _ none]
        | cons x rest =>
          simp only [Except.ok.injEq, reduceCtorEq, false_and, exists_false, exists_eq_left', hb, Option.some.injEq, List.head?_cons, Option.map_some, or_false, false_or]
          exact eq_comm

/-! ### The target -/

theorem fdiv_iff (x n : Int) (s : Nat) (hs : 0 < s) : x.fdiv s = n ↔ n * s ≤ x ∧ x < (n + 1) * s := by
  have hs' : (0 : Int) < s := by omega
  rw [Int.fdiv_eq_ediv_of_nonneg x (by omega)]
  constructor
  · rintro rfl
    exact ⟨Int.ediv_mul_le x (by omega), Int.lt_ediv_add_one_mul_self x hs'⟩
  · rintro ⟨h1, h2⟩
    have h3 := (Int.le_ediv_iff_mul_le hs').2 h1
    have h4 := (Int.ediv_lt_iff_lt_mul hs').2 h2
    omega

theorem targetSize_pos (b : Bytes) : 0 < targetSize b := by unfold targetSize; split <;> omega

theorem targetSize_eq (b : Bytes) : (if targetBlockSize b > 0 then targetBlockSize b * 512 else 1024 : Nat) = targetSize b := by
  show (if field b 22 2 > 0 then field b 22 2 * 512 else 1024) = if field b 22 2 = 0 then 1024 else 512 * field b 22 2
  by_cases h : field b 22 2 = 0
  · rw [if_pos h, if_neg (by omega)]
  · rw [if_neg h, if_pos (by omega)]; omega

theorem segmentSize_eq (b : Bytes) : segmentSize b = targetSize b := by
  show (if field b 22 2 * 512 = 0 then 1024 else field b 22 2 * 512) = if field b 22 2 = 0 then 1024 else 512 * field b 22 2
  by_cases h : field b 22 2 = 0
  · rw [if_pos h, if_pos (by omega)]
  · rw [if_neg h, if_neg (by omega)]; omega

theorem position_eq (b : Bytes) (cs : Nat) : LogFile.targetVcn b * cs + ((LogFile.clusterBlockOffset b * 512 : Nat) : Int) = position b cs := by
  show leInt (slice b 24 32) * (cs : Int) + ((field b 20 2 * 512 : Nat) : Int) = leInt (slice b 24 32) * cs + 512 * field b 20 2
  generalize leInt (slice b 24 32) * (cs : Int) = x
  omega

theorem number_iff (b : Bytes) (cs : Nat) (n : Int) : mftTargetNumber b cs = some n ↔
    Does b onSegments ∧ n * targetSize b ≤ position b cs ∧ position b cs < (n + 1) * targetSize b := by
  unfold mftTargetNumber
  by_cases h : redoOperation b ∈ residentUpdates ∨ undoOperation b ∈ residentUpdates
  · rw [if_pos h, targetSize_eq, Option.some.injEq]
    have hp := position_eq b cs
    rw [show (LogFile.clusterBlockOffset b : Int) * 512 = ((LogFile.clusterBlockOffset b * 512 : Nat) : Int) by omega, hp, fdiv_iff _ _ _ (targetSize_pos b)]
    exact ⟨fun x => ⟨(doesSegments_iff b).2 h, x⟩, fun x => x.2⟩
  · rw [if_neg h]
    exact ⟨(fun x => by cases x), fun x => absurd ((doesSegments_iff b).1 x.1) h⟩

theorem number_none (b : Bytes) (cs : Nat) : mftTargetNumber b cs = none ↔ ¬ Does b onSegments := by
  unfold mftTargetNumber
  rw [doesSegments_iff]
  by_cases h : redoOperation b ∈ residentUpdates ∨ undoOperation b ∈ residentUpdates
  · rw [if_pos h]; exact ⟨(fun x => by cases x), fun x => absurd h x⟩
  · rw [if_neg h]; exact ⟨fun _ => h, fun _ => rfl⟩

theorem field_drop (d : Bytes) (k i n : Nat) : leNat (slice (d.drop k) i (i + n)) = field d (k + i) n := by
  unfold field slice
  rw [List.drop_drop]
  congr 2
  omega

theorem isReference_iff (v : Nat) (d : Bytes) (k r : Nat) : findFileReference v d k = .ok r ↔ IsReference v d k r := by
  unfold findFileReference LogFile.openAttributeReference IsReference
  by_cases hk : k ≥ d.length
  · rw [if_pos hk]
    by_cases hv : v = 0
    · rw [if_pos hv]; exact ⟨(fun x => by cases x), (fun x => by omega)⟩
    · rw [if_neg hv]; exact ⟨(fun x => by cases x), (fun x => by omega)⟩
  · rw [if_neg hk]
    by_cases hv : v = 0
    · rw [if_pos hv, if_neg (by omega)]
      by_cases hl : (d.drop k).length < 44
      · rw [if_pos hl]; rw [List.length_drop] at hl; exact ⟨(fun x => by cases x), (fun x => by omega)⟩
      · rw [if_neg hl]; rw [List.length_drop] at hl
        have e : u64 (d.drop k) 8 = field d (k + 8) 8 := field_drop d k 8 8
        rw [e, Except.ok.injEq]
        exact ⟨fun x => ⟨by omega, x.symm⟩, fun x => x.2.symm⟩
    · rw [if_neg hv, if_pos (by omega)]
      by_cases hl : (d.drop k).length < 40
      · rw [if_pos hl]; rw [List.length_drop] at hl; exact ⟨(fun x => by cases x), (fun x => by omega)⟩
      · rw [if_neg hl]; rw [List.length_drop] at hl
        have e : u64 (d.drop k) 16 = field d (k + 16) 8 := field_drop d k 16 8
        rw [e, Except.ok.injEq]
        exact ⟨fun x => ⟨by omega, x.symm⟩, fun x => x.2.symm⟩

theorem isName_find (d : Bytes) (k : Nat) : IsName d k (findName d k) := by
  unfold findName
  fun_induction LogFile.findNameLoop d k with
  | case1 d h => exact .last d k h
  | case2 d h hk => exact hk ▸ .found d (by omega)
  | case3 d h hk ih => exact .next d k _ (by omega) hk (by rw [show 6 + field d 2 2 = 4 + u16 d 2 + 2 by show 6 + u16 d 2 = _; omega]; exact ih)

theorem isName_unique {d : Bytes} {k : Nat} {a b : Option Str} (h : IsName d k a) (h' : IsName d k b) : a = b := by
  induction h with
  | found d h => cases h' with
    | found => rfl
    | next _ _ _ _ hk _ => exact absurd rfl hk
    | last => omega
  | next d k name h hk hn ih => cases h' with
    | found => exact absurd rfl hk
    | next _ _ _ _ _ hn' => exact ih hn'
    | last => omega
  | last d k h => cases h' with
    | found => omega
    | next => omega
    | last => rfl

theorem isOpen_iff (v : Nat) (i : LogFile.Item) (b : Bytes) (r : Nat) (name : Option Str) :
    targetReference v i b = some (r, name) ↔ Does b onAttributes ∧ IsOpen v i (field b 12 2) r name := by
  unfold targetReference
  rw [doesAttributes_iff]
  by_cases h : redoOperation b ∈ nonresidentUpdates ∨ undoOperation b ∈ nonresidentUpdates
  · rw [if_pos h]
    unfold IsOpen
    have e : i.oat.find? (fun x => x.1 == targetAttribute b) = i.oat.find? (fun x => decide (x.1 = field b 12 2)) := rfl
    rw [e]
    cases i.oat.find? (fun x => decide (x.1 = field b 12 2)) with
    | some e =>
      simp only [Option.some.injEq, Prod.mk.injEq]
      exact ⟨fun x => ⟨h, x.1.symm, x.2.symm⟩, fun x => ⟨x.2.1.symm, x.2.2.symm⟩⟩
    | none =>
      dsimp only
      cases i.oatDump with
      | none => exact ⟨(fun x => by cases x), (fun ⟨_, _, _, x, _⟩ => by cases x)⟩
      | some oat =>
        cases i.anDump with
        | none => exact ⟨(fun x => by cases x), (fun ⟨_, _, _, _, x, _⟩ => by cases x)⟩
        | some an =>
          dsimp only
          cases hf : findFileReference v oat (targetAttribute b) with
          | error e =>
            refine ⟨(fun x => by cases x), ?_⟩
            rintro ⟨_, oat', _, ho, _, hr, _⟩
            cases ho
            have h2 := hf.symm.trans ((isReference_iff v oat (field b 12 2) r).2 hr)
            cases h2
          | ok r' =>
            simp only [Option.some.injEq, Prod.mk.injEq]
            constructor
            · rintro ⟨rfl, rfl⟩
              exact ⟨h, oat, an, rfl, rfl, (isReference_iff _ _ _ _).1 hf, isName_find _ _⟩
            · rintro ⟨_, oat', an', ho, ha, hr, hn⟩
              cases ho; cases ha
              have := (isReference_iff _ _ _ _).2 hr
              refine ⟨?_, isName_unique (isName_find _ _) hn⟩
              have h2 : (Except.ok r' : Except Exc Nat) = .ok r := hf.symm.trans this
              cases h2; rfl
  · rw [if_neg h]; exact ⟨(fun x => by cases x), fun x => absurd x.1 h⟩

/-- The name of the attribute. -/
def targetName : Target → Option Str
  | .reference _ name => name
  | _ => none

theorem decode_reference (r : Nat) : decodeFileRecordSegmentReference r = (number r, sequence r) := decode_ref r

theorem target_iff (p : MFT.Parser) (config : LogFile.Config) (i : LogFile.Item) (b : Bytes) (l : List Str) (name : Option Str) :
    (targetLines p b (target config i b) = .ok l ∧ targetName (target config i b) = name) ↔ IsTarget p config i b l name := by
  unfold target
  cases hn : mftTargetNumber b config.clusterSize with
  | some n =>
    obtain ⟨hd, h1, h2⟩ := (number_iff _ _ _).1 hn
    dsimp only
    unfold targetLines targetName
    dsimp only
    by_cases hneg : n < 0
    · unfold numberPath
      rw [if_pos hneg]
      constructor
      · rintro ⟨h, -⟩; cases h
      · intro h
        cases h with
        | segment m path h g1 g2 hp =>
          have := (number_iff b config.clusterSize m).2 ⟨hd, g1, g2⟩
          rw [hn] at this
          have := Option.some.inj this
          omega
        | opened _ _ _ h => exact absurd hd h
        | unknown h => exact absurd hd h
    · unfold numberPath
      rw [if_neg hneg]
      have hn' : (n.toNat : Int) = n := by omega
      have hs : signedDecimal n = digits n.toNat := by rw [signedDecimal_eq]; unfold signed; rw [if_neg hneg]
      constructor
      · rintro ⟨h, rfl⟩
        cases hl : lookupPath p n.toNat none with
        | error e => rw [hl] at h; cases h
        | ok path =>
          rw [hl] at h
          cases h
          rw [hs, pathLine_eq]
          exact .segment n.toNat path hd (by rw [hn']; exact h1) (by rw [hn']; exact h2) ((lookupPath_iff _ _ _ _).1 hl)
      · intro h
        cases h with
        | segment m path h g1 g2 hp =>
          have := (number_iff b config.clusterSize m).2 ⟨hd, g1, g2⟩
          rw [hn] at this
          have := Option.some.inj this
          have hm : n.toNat = m := by omega
          rw [hm, (lookupPath_iff _ _ _ _).2 hp, hs, hm]
          refine ⟨?_, rfl⟩
          show Except.ok (_ :: pathLine _ path) = _
          rw [pathLine_eq]; rfl
        | opened _ _ _ h => exact absurd hd h
        | unknown h => exact absurd hd h
  | none =>
    have hd := (number_none _ _).1 hn
    dsimp only
    cases ht : targetReference config.oatVersion i b with
    | some t =>
      obtain ⟨r, nm⟩ := t
      obtain ⟨ha, ho⟩ := (isOpen_iff _ _ _ _ _).1 ht
      dsimp only
      unfold targetLines targetName referencePath
      dsimp only
      rw [decode_reference]
      dsimp only
      constructor
      · rintro ⟨h, rfl⟩
        cases hl : lookupPath p (number r) (some (sequence r)) with
        | error e => rw [hl] at h; cases h
        | ok path =>
          rw [hl] at h
          cases h
          rw [decimal_eq, pathLine_eq]
          exact .opened r nm path hd ha ho ((lookupPath_iff _ _ _ _).1 hl)
      · intro h
        cases h with
        | segment _ _ h => exact absurd h hd
        | opened r' nm' path _ _ ho' hp =>
          have := (isOpen_iff _ _ _ _ _).2 ⟨ha, ho'⟩
          rw [ht] at this
          cases this
          rw [(lookupPath_iff _ _ _ _).2 hp, decimal_eq]
          refine ⟨?_, rfl⟩
          show Except.ok (_ :: _ :: pathLine _ path) = _
          rw [pathLine_eq]; rfl
        | unknown _ h => exact absurd ho (h ha r nm)
    | none =>
      dsimp only
      constructor
      · rintro ⟨h, rfl⟩
        cases h
        rw [decimal_eq]
        refine .unknown hd fun ha r nm ho => ?_
        rw [(isOpen_iff _ _ _ _ _).2 ⟨ha, ho⟩] at ht
        cases ht
      · intro h
        cases h with
        | segment _ _ h => exact absurd h hd
        | opened r' nm' path _ ha ho' hp =>
          rw [(isOpen_iff _ _ _ _ _).2 ⟨ha, ho'⟩] at ht
          cases ht
        | unknown _ h =>
          refine ⟨?_, rfl⟩
          unfold targetLines
          rw [decimal_eq]; rfl

theorem offset_iff (config : LogFile.Config) (b : Bytes) (o : Option Int) : offsetInTarget b config.clusterSize = o ↔ IsOffset config b o := by
  unfold offsetInTarget
  by_cases h : redoOperation b ∈ residentUpdates ∨ undoOperation b ∈ residentUpdates
  · rw [if_pos h]
    have hd := (doesSegments_iff b).2 h
    have e : ((LogFile.attributeOffset b + LogFile.recordOffset b : Nat) : Int) = field b 16 2 + field b 18 2 := by
      show ((field b 18 2 + field b 16 2 : Nat) : Int) = _
      omega
    rw [e]
    constructor
    · rintro rfl; exact .segment hd
    · intro x
      cases x with
      | segment => rfl
      | opened x => exact absurd hd x
      | unknown x => exact absurd hd x
  · rw [if_neg h]
    have hd : ¬ Does b onSegments := fun x => h ((doesSegments_iff b).1 x)
    by_cases ha : redoOperation b ∈ nonresidentUpdates ∨ undoOperation b ∈ nonresidentUpdates
    · rw [if_pos ha]
      have ha' := (doesAttributes_iff b).2 ha
      have e : LogFile.targetVcn b * config.clusterSize + LogFile.clusterBlockOffset b * 512 + LogFile.attributeOffset b + LogFile.recordOffset b =
          position b config.clusterSize + field b 16 2 + field b 18 2 := by
        have hp := position_eq b config.clusterSize
        rw [← hp]
        show _ + _ + ((field b 18 2 : Nat) : Int) + ((field b 16 2 : Nat) : Int) = _
        omega
      rw [e]
      constructor
      · rintro rfl; exact .opened hd ha'
      · intro x
        cases x with
        | segment x => exact absurd x hd
        | opened => rfl
        | unknown _ x => exact absurd ha' x
    · rw [if_neg ha]
      have ha' : ¬ Does b onAttributes := fun x => ha ((doesAttributes_iff b).1 x)
      constructor
      · rintro rfl; exact .unknown hd ha'
      · intro x
        cases x with
        | segment x => exact absurd x hd
        | opened _ x => exact absurd x ha'
        | unknown => rfl

theorem offsetLine_eq (o : Option Int) : [offsetLine o] = offsetLines o := by
  cases o with
  | none => rfl
  | some o => unfold offsetLine offsetLines; dsimp only; rw [signedDecimal_eq]; rfl

/-! ### Blocks -/

/-- The lines come without an exception. -/
def Yields (g : Gen Str) (l : List Str) : Prop := g.err = none ∧ g.items = l

theorem yields_append (a b : Gen Str) (l : List Str) : Yields (a.append b) l ↔ ∃ x y, Yields a x ∧ Yields b y ∧ l = x ++ y := by
  unfold Yields
  rw [append_err]
  constructor
  · rintro ⟨⟨h1, h2⟩, h3⟩
    exact ⟨a.items, b.items, ⟨h1, rfl⟩, ⟨h2, rfl⟩, by rw [← h3, append_items h1]⟩
  · rintro ⟨x, y, ⟨h1, rfl⟩, ⟨h2, rfl⟩, rfl⟩
    exact ⟨⟨h1, h2⟩, append_items h1⟩

theorem yields_done (l : List Str) : Yields .done l ↔ l = [] := ⟨fun h => h.2.symm, fun h => ⟨rfl, h.symm⟩⟩

theorem yields_lines (x : Except Exc (List Str)) (l : List Str) : Yields (linesOr x) l ↔ x = .ok l := by
  unfold Yields linesOr andThen
  cases x with
  | error e => exact ⟨(fun h => by cases h.1), (fun h => by cases h)⟩
  | ok a => exact ⟨(fun h => by rw [← h.2]), (fun h => by cases h; exact ⟨rfl, rfl⟩)⟩

theorem yields_unique {g : Gen Str} {a b : List Str} (h : Yields g a) (h' : Yields g b) : a = b := h.2.symm.trans h'.2

theorem standard_iff (v : Bytes) (l : List Str) : standardInformationLines v = .ok l ↔ 36 ≤ v.length ∧
    l = [Str.ofString "$STANDARD_INFORMATION:"] ++ times (time v 8) (time v 24) (time v 0) (time v 16) ++
        [line " * File attributes: " (resolveFileAttributes (field v 32 4)), []] := by
  unfold standardInformationLines siMtime siAtime siCtime siEtime siFileAttributes
  constructor
  · intro h
    cases h1 : timeField v 8 with
    | error e => rw [h1] at h; cases h
    | ok m =>
    cases h2 : timeField v 24 with
    | error e => rw [h1, h2] at h; cases h
    | ok a =>
    cases h3 : timeField v 0 with
    | error e => rw [h1, h2, h3] at h; cases h
    | ok c =>
    cases h4 : timeField v 16 with
    | error e => rw [h1, h2, h3, h4] at h; cases h
    | ok e =>
    cases h5 : unpackLE 4 (slice v 32 36) with
    | error e => rw [h1, h2, h3, h4, h5] at h; cases h
    | ok f =>
      rw [h1, h2, h3, h4, h5] at h
      cases h
      obtain ⟨hl, hf⟩ := Props.unpack_of_ok h5
      rw [slice_length] at hl
      refine ⟨by omega, ?_⟩
      rw [((Props.timeField_iff _ _ _).1 h1).2, ((Props.timeField_iff _ _ _).1 h2).2, ((Props.timeField_iff _ _ _).1 h3).2,
        ((Props.timeField_iff _ _ _).1 h4).2, hf]
      rfl
  · rintro ⟨hl, rfl⟩
    rw [Props.timeField_ok (by omega), Props.timeField_ok (by omega), Props.timeField_ok (by omega), Props.timeField_ok (by omega),
      Props.unpackLE_of_length (by rw [slice_length]; omega)]
    rfl

theorem name_iff (p : MFT.Parser) (title : String) (v : Bytes) (l : List Str) : fileNameLines p title v = .ok l ↔ IsNameBlock p title v l := by
  unfold fileNameLines diMtime diAtime diCtime diEtime fileNameInformation referencePath
  constructor
  · intro h
    cases h1 : timeField (v.drop 8) 8 with
    | error e => rw [h1] at h; cases h
    | ok m =>
    cases h2 : timeField (v.drop 8) 24 with
    | error e => rw [h1, h2] at h; cases h
    | ok a =>
    cases h3 : timeField (v.drop 8) 0 with
    | error e => rw [h1, h2, h3] at h; cases h
    | ok c =>
    cases h4 : timeField (v.drop 8) 16 with
    | error e => rw [h1, h2, h3, h4] at h; cases h
    | ok e =>
    cases h5 : fileNameName v with
    | error e => rw [h1, h2, h3, h4, h5] at h; cases h
    | ok name =>
    cases h6 : fileNameParent v with
    | error e => rw [h1, h2, h3, h4, h5, h6] at h; cases h
    | ok parent =>
    have hp : parent = parentOf v := (Props.unpack_of_ok h6).2
    subst hp
    cases h7 : lookupPath p (number (parentOf v)) (some (sequence (parentOf v))) with
    | error e => rw [h1, h2, h3, h4, h5, h6] at h; simp only [bind, Except.bind, decode_reference, h7] at h; cases h
    | ok path =>
      rw [h1, h2, h3, h4, h5, h6] at h
      simp only [bind, Except.bind, decode_reference, h7] at h
      cases h
      have hl : 65 ≤ v.length := by
        unfold fileNameName at h5
        cases hu : unpackLE 1 (slice v 64 65) with
        | error e => rw [hu] at h5; cases h5
        | ok n =>
          have := (Props.unpack_of_ok hu).1
          rw [slice_length] at this; omega
      rw [Props.timeField_drop _ _ _ _ h1, Props.timeField_drop _ _ _ _ h2, Props.timeField_drop _ _ _ _ h3, Props.timeField_drop _ _ _ _ h4,
        Props.name_of_ok h5, decimal_eq, pathLine_eq]
      have := IsNameBlock.intro (title := title) path hl ((lookupPath_iff _ _ _ _).1 h7)
      simp only [List.append_assoc, List.cons_append, List.nil_append] at this
      exact this
  · rintro ⟨path, hl, hp⟩
    have hd : (v.drop 8).length = v.length - 8 := List.length_drop
    rw [Props.timeField_ok (by omega), Props.timeField_ok (by omega), Props.timeField_ok (by omega), Props.timeField_ok (by omega)]
    have h5 : fileNameName v = .ok (nameOf v) := by
      unfold fileNameName
      rw [Props.unpackLE_of_length (by rw [slice_length]; omega)]
      rfl
    have h6 : fileNameParent v = .ok (parentOf v) := by
      unfold fileNameParent
      rw [Props.unpackLE_of_length (by rw [slice_length]; omega)]
      rfl
    rw [h5, h6]
    simp only [bind, Except.bind, decode_reference, (lookupPath_iff _ _ _ _).2 hp, decimal_eq, pathLine_eq, Props.slice_of_drop]
    simp only [List.append_assoc, List.cons_append, List.nil_append]
    rfl

theorem object_eq (v : Bytes) : objectIdLines v = [Str.ofString "$OBJECT_ID:", line " * GUID: " (objectGuid v), line " * Timestamp: " (Spec.LogReport.objectTime v), []] := by
  unfold objectIdLines objectGuid Spec.LogReport.objectTime objectIdTimestamp objectId
  by_cases h : 16 ≤ v.length
  · have hl : (slice v 0 16).length = 16 := by rw [slice_length]; omega
    simp only [hl, if_pos h, ne_eq, not_true_eq_false, if_false]
    rw [Proof.MoveReport.guidText_eq hl]
    have e := Props.guidTimestamp_eq (slice v 0 16)
    unfold guidTimestamp at e
    rw [e]
    rfl
  · have hl : (slice v 0 16).length ≠ 16 := by rw [slice_length]; omega
    rw [if_pos hl, if_neg h, if_neg h]
    rfl

theorem value_iff (p : MFT.Parser) (t : Nat) (v : Bytes) (l : List Str) : valueLines p t v = .ok l ↔ IsValueBlock p t v l := by
  unfold valueLines
  by_cases h1 : t = 0x10
  · subst h1
    rw [if_pos rfl, standard_iff]
    constructor
    · rintro ⟨h, rfl⟩; exact .standardInformation v h
    · intro h
      cases h with
      | standardInformation _ h => exact ⟨h, rfl⟩
      | other _ _ h => exact absurd rfl h
  · rw [if_neg h1]
    by_cases h2 : t = 0x30
    · subst h2
      rw [if_pos rfl, name_iff]
      constructor
      · intro h; exact .fileName v l h
      · intro h
        cases h with
        | fileName _ _ h => exact h
        | other _ _ _ h => exact absurd rfl h
    · rw [if_neg h2]
      by_cases h3 : t = 0x40
      · subst h3
        rw [if_pos rfl, object_eq]
        constructor
        · intro h; cases h; exact .objectId v
        · intro h
          cases h with
          | objectId => rfl
          | other _ _ _ _ h => exact absurd rfl h
      · rw [if_neg h3]
        constructor
        · intro h; cases h; exact .other t v h1 h2 h3
        · intro h
          cases h with
          | standardInformation => exact absurd rfl h1
          | fileName => exact absurd rfl h2
          | objectId => exact absurd rfl h3
          | other => rfl

theorem attribute_iff (p : MFT.Parser) (a : AttributeRecord) (l : List Str) : Yields (attributeLines p a) l ↔ IsAttributeBlock p a l := by
  cases a with
  | nonresident a1 a2 a3 a4 a5 a6 a7 =>
    rw [show attributeLines p (.nonresident a1 a2 a3 a4 a5 a6 a7) = .done from rfl, yields_done]
    constructor
    · rintro rfl; exact .nonresident _ (fun _ _ _ h => by cases h)
    · intro h; cases h; rfl
  | resident t n v =>
    unfold attributeLines
    dsimp only
    by_cases ht : t = 0xA0
    · rw [if_pos ht]
      constructor
      · intro h; cases h.1
      · intro h
        cases h with
        | resident _ _ _ _ h => exact absurd ht h
        | nonresident _ h => exact absurd rfl (h t n v)
    · rw [if_neg ht, yields_lines, value_iff]
      constructor
      · intro h; exact .resident t n v l ht h
      · intro h
        cases h with
        | resident _ _ _ _ _ h => exact h
        | nonresident _ h => exact absurd rfl (h t n v)

theorem forEach_iff {α : Type} (f : α → Gen Str) (R : α → List Str → Prop) (hf : ∀ x l, Yields (f x) l ↔ R x l) :
    ∀ (xs : List α) (l : List Str), Yields (forEach f xs) l ↔ Blocks R xs l
  | [], l => by
    show Yields .done l ↔ _
    rw [yields_done]
    constructor
    · rintro rfl; exact .nil
    · intro h; cases h; rfl
  | x :: xs, l => by
    unfold forEach
    rw [yields_append]
    constructor
    · rintro ⟨a, b, h1, h2, rfl⟩
      exact .cons x xs a b ((hf x a).1 h1) ((forEach_iff f R hf xs b).1 h2)
    · intro h
      cases h with
      | cons _ _ a b h1 h2 => exact ⟨a, b, (hf x a).2 h1, (forEach_iff f R hf xs b).2 h2, rfl⟩

theorem lookupPath_err {p : MFT.Parser} {n : Nat} {s : Option Nat} {e : Exc} (h : lookupPath p n s = .error e) : isMftExc e = false := by
  unfold lookupPath at h
  cases hr : p.getRecord n s with
  | error x =>
    rw [hr] at h
    dsimp only at h
    by_cases hm : isMftExc x = true
    · rw [if_pos hm] at h; cases h
    · rw [if_neg hm] at h; cases h; simpa using hm
  | ok r =>
    rw [hr] at h
    dsimp only at h
    cases hb : fullPaths p r with
    | error x =>
      rw [hb] at h
      dsimp only at h
      by_cases hm : isMftExc x = true
      · rw [if_pos hm] at h; cases h
      · rw [if_neg hm] at h; cases h; simpa using hm
    | ok l => rw [hb] at h; cases l <;> cases h

theorem timeField_err {v : Bytes} {i : Nat} {e : Exc} (h : timeField v i = .error e) : isMftExc e = false := by
  unfold timeField unpackLE at h
  split at h
  · cases h
    rename_i h'
    split at h'
    · cases h'
    · cases h'; rfl
  · cases h

theorem unpack_err {n : Nat} {v : Bytes} {e : Exc} (h : unpackLE n v = .error e) : isMftExc e = false := by
  unfold unpackLE at h
  split at h
  · cases h
  · cases h; rfl

theorem bind_err {α β : Type} {x : Except Exc α} {f : α → Except Exc β} {e : Exc} (h : (x >>= f) = .error e) :
    x = .error e ∨ ∃ a, x = .ok a ∧ f a = .error e := by
  cases x with
  | error e' => cases h; exact .inl rfl
  | ok a => exact .inr ⟨a, rfl, h⟩

theorem standard_err {v : Bytes} {e : Exc} (h : standardInformationLines v = .error e) : isMftExc e = false := by
  unfold standardInformationLines siMtime siAtime siCtime siEtime siFileAttributes at h
  rcases bind_err h with h | ⟨_, -, h⟩
  · exact timeField_err h
  rcases bind_err h with h | ⟨_, -, h⟩
  · exact timeField_err h
  rcases bind_err h with h | ⟨_, -, h⟩
  · exact timeField_err h
  rcases bind_err h with h | ⟨_, -, h⟩
  · exact timeField_err h
  rcases bind_err h with h | ⟨_, -, h⟩
  · exact unpack_err h
  cases h

theorem name_err {p : MFT.Parser} {title : String} {v : Bytes} {e : Exc} (h : fileNameLines p title v = .error e) : isMftExc e = false := by
  unfold fileNameLines diMtime diAtime diCtime diEtime at h
  rcases bind_err h with h | ⟨_, -, h⟩
  · exact timeField_err h
  rcases bind_err h with h | ⟨_, -, h⟩
  · exact timeField_err h
  rcases bind_err h with h | ⟨_, -, h⟩
  · exact timeField_err h
  rcases bind_err h with h | ⟨_, -, h⟩
  · exact timeField_err h
  rcases bind_err h with h | ⟨_, -, h⟩
  · unfold fileNameName at h
    split at h
    · cases h
      rename_i h
      exact unpack_err h
    · cases h
  rcases bind_err h with h | ⟨_, -, h⟩
  · exact unpack_err h
  rcases bind_err h with h | ⟨_, -, h⟩
  · exact lookupPath_err h
  cases h

theorem attribute_err {p : MFT.Parser} {a : AttributeRecord} {e : Exc} (h : (attributeLines p a).err = some e) : isMftExc e = false := by
  unfold attributeLines at h
  split at h
  · cases h
  · split at h
    · cases h; rfl
    · unfold linesOr at h
      rename_i t n v _
      cases hv : valueLines p t v with
      | ok l => rw [hv] at h; cases h
      | error x =>
        rw [hv] at h
        cases h
        unfold valueLines at hv
        split at hv
        · exact standard_err hv
        · split at hv
          · exact name_err hv
          · split at hv <;> cases hv

theorem segment_iff (p : MFT.Parser) (b redo : Bytes) (l : List Str) : Yields (initializeLines p b redo) l ↔ IsSegmentBlock p b redo l := by
  unfold initializeLines
  have hop : Redoes b ["InitializeFileRecordSegment"] ↔ redoOperation b = 0x02 := initialize_iff _
  by_cases h : redoOperation b = 0x02
  · rw [if_pos h, segmentSize_eq]
    have hr := hop.2 h
    cases hf : FileRecordSegment.init (redo ++ zeros (targetSize b - redo.length)) false with
    | error e =>
      dsimp only
      by_cases he : isMftExc e = true
      · rw [if_pos he, yields_done]
        constructor
        · rintro rfl; exact .invalid hr e hf he
        · intro h
          cases h with
          | other h => exact absurd hr h
          | invalid => rfl
          | segment _ f _ hf' => rw [hf] at hf'; cases hf'
      · rw [if_neg he]
        constructor
        · intro h; cases h.1
        · intro h
          cases h with
          | other h => exact absurd hr h
          | invalid _ e' hf' he' => rw [hf] at hf'; cases hf'; exact absurd he' he
          | segment _ f _ hf' => rw [hf] at hf'; cases hf'
    | ok f =>
      dsimp only
      have hfe := forEach_iff (attributeLines p) (IsAttributeBlock p) (attribute_iff p) (f.attributes.items.map (·.attr))
      unfold catchMft forGen
      dsimp only
      constructor
      · intro hy
        by_cases hn : (forEach (attributeLines p) (f.attributes.items.map (·.attr))).err = none
        · have hitems : ((forEach (attributeLines p) (f.attributes.items.map (·.attr))).append ⟨[], f.attributes.err⟩) =
              ⟨(forEach (attributeLines p) (f.attributes.items.map (·.attr))).items, f.attributes.err⟩ := by
            unfold Gen.append; rw [hn]; dsimp only; rw [List.append_nil]
          rw [hitems] at hy
          dsimp only at hy
          cases hae : f.attributes.err with
          | none =>
            rw [hae] at hy
            exact .segment hr f l hf (by rw [hae]; intro e h; cases h) ((hfe l).1 ⟨hn, hy.2⟩)
          | some e =>
            rw [hae] at hy
            dsimp only at hy
            by_cases he : isMftExc e = true
            · rw [if_pos he] at hy
              exact .segment hr f l hf (by rw [hae]; intro e' h; cases h; exact he) ((hfe l).1 ⟨hn, hy.2⟩)
            · rw [if_neg he] at hy; cases hy.1
        · obtain ⟨e, hs⟩ := Option.ne_none_iff_exists'.1 hn
          have hnot : isMftExc e = false := by
            obtain ⟨x, -, hx⟩ := forEach_some hs
            exact attribute_err hx
          have hitems : ((forEach (attributeLines p) (f.attributes.items.map (·.attr))).append ⟨[], f.attributes.err⟩) =
              forEach (attributeLines p) (f.attributes.items.map (·.attr)) := by
            unfold Gen.append; rw [hs]; dsimp only; rw [← hs]
          rw [hitems, hs] at hy
          dsimp only at hy
          rw [if_neg (by simp [hnot])] at hy
          have := hy.1
          rw [hs] at this; cases this
      · intro hb
        cases hb with
        | other h => exact absurd hr h
        | invalid _ e' hf' he' => rw [hf] at hf'; cases hf'
        | segment _ f' _ hf' he hl =>
          rw [hf] at hf'; cases hf'
          obtain ⟨h1, h2⟩ := (hfe l).2 hl
          have hitems : ((forEach (attributeLines p) (f.attributes.items.map (·.attr))).append ⟨[], f.attributes.err⟩) =
              ⟨l, f.attributes.err⟩ := by
            unfold Gen.append; rw [h1]; dsimp only; rw [List.append_nil, h2]
          rw [hitems]
          dsimp only
          cases hae : f.attributes.err with
          | none => exact ⟨rfl, rfl⟩
          | some e => dsimp only; rw [if_pos (he e hae)]; exact ⟨rfl, rfl⟩
  · rw [if_neg h, yields_done]
    have hr := fun x => h (hop.1 x)
    constructor
    · rintro rfl; exact .other hr
    · intro h
      cases h with
      | other => rfl
      | invalid => rfl
      | segment h => exact absurd h hr

end Verif.Proof.LogReport
