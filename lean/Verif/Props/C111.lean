/-
C111: what the table of a FAT volume says about clusters and about the state of the volume.

`is_allocated` gives True exactly for the clusters whose entry is not zero, False for those whose entry is zero, and None exactly for numbers
outside the table or the volume.  The media type is the low byte of entry 0.  The marks in entry 1 are `None` for FAT12; for FAT16 and FAT32 the volume is
dirty exactly when the highest bit of the (28 significant bits of the) entry is clear, and errors are reported exactly when the next bit is clear.
The marks in the boot sector are the two low bits of the flags.

The mark in the table is not the one that Windows sets on a FAT32 volume (`C111_windows`), which the comment in the code says as well.
-/
import Verif.Model.FAT.Marks
import Verif.Props.C55_C56
namespace Verif.Props.FatMarks
open Verif.FAT Verif.Spec.FAT

/-- Entry `n` of the table, without reserved bits. -/
def entry (t : Table) (n : Nat) : Nat := leNat (tableBytes t) / 2 ^ (width t.type * n) % 2 ^ significant t.type

/-- The number of the bit of entry 1 that is set on a clean volume. -/
def cleanBit : FatType → Nat
  | .fat12 => 11
  | .fat16 => 15
  | .fat32 => 27

theorem and_bit (v i : Nat) : v &&& 2 ^ i = 0 ↔ v.testBit i = false := by
  constructor
  · intro h
    have := congrArg (fun x => Nat.testBit x i) h
    simpa [Nat.testBit_and, Nat.testBit_two_pow_self] using this
  · intro h
    apply Nat.eq_of_testBit_eq
    intro j
    rw [Nat.testBit_and, Nat.testBit_two_pow, Nat.zero_testBit]
    by_cases hj : i = j
    · subst hj; simp [h]
    · simp [hj]

theorem C111_allocated (t : Table) (n : Nat) (hc : Complete t) :
    (t.isAllocated n = .ok (some true) ↔ InBounds t n ∧ entry t n ≠ 0) ∧
    (t.isAllocated n = .ok (some false) ↔ InBounds t n ∧ entry t n = 0) ∧
    (t.isAllocated n = .ok none ↔ ¬ InBounds t n) := by
  by_cases hb : InBounds t n
  · have h := C55_entry t n hc hb
    have he : t.isAllocated n = .ok (some (decide (entry t n ≠ 0))) := by unfold Table.isAllocated; rw [h]; rfl
    rw [he]
    refine ⟨?_, ?_, ?_⟩
    · simp [hb]
    · simp [hb]
    · simp [hb]
  · have h := (C55_refused t n hc).mpr hb
    have he : t.isAllocated n = .ok none := by unfold Table.isAllocated; rw [h]; rfl
    rw [he]
    simp [hb]

theorem C111_media (t : Table) (hc : Complete t) (hb : InBounds t 0) : t.media = .ok (u8 (tableBytes t) 0) := by
  unfold Table.media
  rw [C55_entry t 0 hc hb, Nat.mul_zero, Nat.pow_zero, Nat.div_one]
  show Except.ok (leNat (tableBytes t) % 2 ^ significant t.type &&& 0xFF) = Except.ok _
  rw [show (0xFF : Nat) = 2 ^ 8 - 1 by decide, Nat.and_two_pow_sub_one_eq_mod]
  have hd : (2 : Nat) ^ 8 ∣ 2 ^ significant t.type := Nat.pow_dvd_pow 2 (by cases t.type <;> decide)
  rw [Nat.mod_mod_of_dvd _ hd]
  unfold u8
  cases htb : tableBytes t with
  | nil => rfl
  | cons x rest =>
    have : slice (x :: rest) 0 (0 + 1) = [x] := by simp [slice]
    rw [this]
    simp only [leNat]
    have := x.toNat_lt
    congr 1
    omega

/-- The marks in the table of a FAT16 or FAT32 volume. -/
theorem C111_marks (t : Table) (hc : Complete t) (hb : InBounds t 1) (ht : t.type ≠ .fat12) :
    t.isVolumeDirty = .ok (some (! (entry t 1).testBit (cleanBit t.type))) ∧
    t.hardErrors = .ok (some (! (entry t 1).testBit (cleanBit t.type - 1))) := by
  have h : t.getElement 1 = .ok (entry t 1) := C55_entry t 1 hc hb
  unfold Table.isVolumeDirty Table.hardErrors
  rw [if_neg ht, if_neg ht, h]
  have key : ∀ i, decide (entry t 1 &&& 2 ^ i = 0) = ! (entry t 1).testBit i := fun i => by
    cases hb : (entry t 1).testBit i with
    | true => rw [decide_eq_false]; · rfl
              rw [and_bit, hb]; decide
    | false => rw [decide_eq_true]; · rfl
               rw [and_bit, hb]
  cases htype : t.type with
  | fat12 => exact absurd htype ht
  | fat16 =>
    refine ⟨?_, ?_⟩
    · exact congrArg (fun x => Except.ok (some x)) (key 15)
    · exact congrArg (fun x => Except.ok (some x)) (key 14)
  | fat32 =>
    refine ⟨?_, ?_⟩
    · exact congrArg (fun x => Except.ok (some x)) (key 27)
    · exact congrArg (fun x => Except.ok (some x)) (key 26)

/-- FAT12 has no marks; for the other types the answer is an exception exactly when the table has no entry 1. -/
theorem C111_no_marks (t : Table) (hc : Complete t) :
    (t.isVolumeDirty = .ok none ↔ t.type = .fat12) ∧ (t.hardErrors = .ok none ↔ t.type = .fat12) ∧
    (t.type ≠ .fat12 → ¬ InBounds t 1 →
      t.isVolumeDirty = .error .FileAllocationTableException ∧ t.hardErrors = .error .FileAllocationTableException) := by
  refine ⟨?_, ?_, ?_⟩
  · unfold Table.isVolumeDirty
    by_cases ht : t.type = .fat12
    · simp [ht]
    · rw [if_neg ht]
      cases t.getElement 1 <;> simp [Except.map, ht]
  · unfold Table.hardErrors
    by_cases ht : t.type = .fat12
    · simp [ht]
    · rw [if_neg ht]
      cases t.getElement 1 <;> simp [Except.map, ht]
  · intro ht hb
    have h := (C55_refused t 1 hc).mpr hb
    unfold Table.isVolumeDirty Table.hardErrors
    rw [if_neg ht, if_neg ht, h]
    exact ⟨rfl, rfl⟩

/-- The marks in the boot sector. -/
theorem C111_boot (b : BSBPB) :
    b.isVolumeDirty = ((u8 b.buf (if b.isFat32 then 65 else 37)).testBit 0, (u8 b.buf (if b.isFat32 then 65 else 37)).testBit 1) := by
  have hf : b.dirtyFlags = u8 b.buf (if b.isFat32 then 65 else 37) := by
    unfold BSBPB.dirtyFlags; cases b.isFat32 <;> rfl
  have key : ∀ v i : Nat, decide (v &&& 2 ^ i > 0) = v.testBit i := fun v i => by
    cases hb : v.testBit i with
    | true =>
      rw [decide_eq_true]
      exact Nat.pos_of_ne_zero fun h => by rw [and_bit, hb] at h; cases h
    | false =>
      rw [decide_eq_false]
      have := (and_bit v i).mpr hb
      omega
  unfold BSBPB.isVolumeDirty
  rw [hf]
  exact Prod.ext (key _ 0) (key _ 1)

/-- Entry 1 with what Windows writes to it on a volume in use (0x7FFFFFFF): the volume is said to be clean. -/
theorem C111_windows (t : Table) (hc : Complete t) (hb : InBounds t 1) (ht : t.type = .fat32) (h : u32 (tableBytes t) 4 = 0x7FFFFFFF) :
    t.isVolumeDirty = .ok (some false) ∧ t.hardErrors = .ok (some false) := by
  have he : entry t 1 = 0xFFFFFFF := by
    have hlen : 8 ≤ (tableBytes t).length := by
      have h1 := hb.1; rw [ht] at h1; simp only [width] at h1
      unfold tableBytes
      rw [slice_length_of_le hc.1]; omega
    unfold entry
    rw [ht]
    simp only [width, significant]
    have h0 : tableBytes t = slice (tableBytes t) 0 4 ++ (tableBytes t).drop 4 := by simp [slice]
    have h1 : (tableBytes t).drop 4 = slice (tableBytes t) 4 8 ++ (tableBytes t).drop 8 := by
      simp only [slice]
      rw [show (8 : Nat) = 4 + 4 by rfl, ← List.drop_drop]
      exact (List.take_append_drop 4 _).symm
    unfold u32 at h
    rw [h0, leNat_append, slice_length_of_le (by omega), h1, leNat_append, slice_length_of_le (by omega), h]
    have hlt := leNat_lt (slice (tableBytes t) 0 4)
    rw [slice_length_of_le (by omega)] at hlt
    simp only [Nat.sub_zero, Nat.reducePow, Nat.reduceSub] at hlt ⊢
    omega
  obtain ⟨h1, h2⟩ := C111_marks t hc hb (by rw [ht]; decide)
  rw [h1, h2, he, ht]
  exact ⟨rfl, rfl⟩

/-! ### Examples -/

/-- A FAT16 table: the entries 0xFFF8, 0x7FFF (the volume is dirty), 0 and 0xFFFF. -/
def smallTable : Table := ⟨[0xF8, 0xFF, 0xFF, 0x7F, 0, 0, 0xFF, 0xFF] ++ zeros 504, 0, 512, 4, .fat16⟩

example : Complete smallTable ∧ InBounds smallTable 0 ∧ InBounds smallTable 1 ∧ ¬ InBounds smallTable 5 := by
  refine ⟨by unfold Complete smallTable; decide +kernel, by decide +kernel, by decide +kernel, by decide +kernel⟩

example : smallTable.isVolumeDirty = .ok (some true) ∧ smallTable.hardErrors = .ok (some false) ∧ smallTable.media = .ok 0xF8 ∧
    smallTable.isAllocated 2 = .ok (some false) ∧ smallTable.isAllocated 3 = .ok (some true) ∧ smallTable.isAllocated 5 = .ok none := by
  decide +kernel

/-- A FAT32 table as Windows leaves it while the volume is in use. -/
example : (⟨[0xF8, 0xFF, 0xFF, 0x0F, 0xFF, 0xFF, 0xFF, 0x7F] ++ zeros 504, 0, 512, 4, .fat32⟩ : Table).isVolumeDirty = .ok (some false) := by
  decide +kernel

end Verif.Props.FatMarks
