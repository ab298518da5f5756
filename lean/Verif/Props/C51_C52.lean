/-
Properties C51 (move tables) and C52 (WSL metadata).
-/
import Verif.Model.MoveTable
import Verif.Model.WSL
import Verif.Basic.Bits
import Verif.Props.C22_C24
import Verif.Props.C26_C27
namespace Verif.Props
open Verif.MoveTable Verif.WSL

/-! ### C51 -/

/-- Number of entry slots in a sector: 124 bytes each, before a footer of 16 bytes. -/
def slotsPerSector (size : Nat) : Nat := if size = 512 then 4 else 32

/-- All entry slots of a move table, in order: those of sectors 1, 2, ... that are wholly inside the
file (sector 0 is the header). -/
def moveTableSlots (file : Bytes) (size : Nat) : List Bytes :=
  (List.range' 1 (file.length / size - 1)).flatMap fun i =>
    (List.range' 0 (slotsPerSector size)).map fun j => slice file (i * size + 124 * j) (i * size + 124 * j + 124)

/-- The type of an entry: 1 is an unused slot, 2 a move. -/
def slotType (slot : Bytes) : Nat := leNat (slice slot 8 12)

/-- What should be listed: the moves, up to the first slot of unknown type, where listing fails. -/
def listedMoves (slots : List Bytes) : Gen Bytes :=
  ⟨(slots.takeWhile fun s => slotType s == 1 || slotType s == 2).filter fun s => slotType s == 2,
    if slots.all fun s => slotType s == 1 || slotType s == 2 then none else some .NotImplementedError⟩

theorem listedMoves_append (a b : List Bytes) : listedMoves (a ++ b) = (listedMoves a).append (listedMoves b) := by
  induction a with
  | nil => rfl
  | cons s a ih =>
    by_cases h : (slotType s == 1 || slotType s == 2) = true
    · have h1 : ∀ l, listedMoves (s :: l) = ⟨(if slotType s == 2 then [s] else []) ++ (listedMoves l).items, (listedMoves l).err⟩ := by
        intro l
        unfold listedMoves
        simp only [List.takeWhile_cons, h, List.all_cons, Bool.true_and, if_pos, List.filter_cons]
        split <;> simp
      rw [List.cons_append, h1, h1, ih]
      unfold Gen.append
      dsimp only
      cases (listedMoves a).err <;> simp
    · have h1 : ∀ l, listedMoves (s :: l) = ⟨[], some .NotImplementedError⟩ := by
        intro l
        unfold listedMoves
        simp only [List.takeWhile_cons, h, List.all_cons]
        rfl
      rw [List.cons_append, h1, h1]
      rfl

theorem listedMoves_known {s : Bytes} (l : List Bytes) (h : slotType s = 1 ∨ slotType s = 2) :
    listedMoves (s :: l) = ⟨(if slotType s = 2 then [s] else []) ++ (listedMoves l).items, (listedMoves l).err⟩ := by
  unfold listedMoves
  rcases h with h | h <;> simp [h]

theorem listedMoves_unknown {s : Bytes} (l : List Bytes) (h : ¬ (slotType s = 1 ∨ slotType s = 2)) :
    listedMoves (s :: l) = ⟨[], some .NotImplementedError⟩ := by
  rw [not_or] at h
  unfold listedMoves
  simp [h.1, h.2]

theorem entryType_eq {raw : Bytes} (h : raw.length = 124) : entryType raw = .ok (slotType raw) :=
  unpackLE_of_length (by rw [slice_length]; omega)

theorem logEntry_eq {raw : Bytes} (h : raw.length = 124) :
    logEntry raw = if slotType raw = 1 ∨ slotType raw = 2 then .ok raw else .error .NotImplementedError := by
  unfold logEntry
  rw [if_neg (fun hc => hc h), entryType_eq h]
  by_cases hk : slotType raw = 1 ∨ slotType raw = 2
  · rw [if_pos hk]; exact if_neg (fun hc => hc hk)
  · rw [if_neg hk]; exact if_pos hk

theorem sectorEntriesLoop_eq (buf : Bytes) (n pos : Nat) (h1 : buf.length - 16 < pos + 124 * n + 124) (h2 : pos + 124 * n ≤ buf.length - 16) :
    usedEntries (sectorEntriesLoop buf pos) = listedMoves ((List.range' 0 n).map fun j => slice buf (pos + 124 * j) (pos + 124 * j + 124)) := by
  induction n generalizing pos with
  | zero => rw [sectorEntriesLoop.eq_def, if_neg (by omega)]; rfl
  | succ n ih =>
    have ih := ih (pos + 124) (by omega) (by omega)
    have hl : (slice buf pos (pos + 124)).length = 124 := by rw [slice_length]; omega
    have e : (List.range' 0 (n + 1)).map (fun j => slice buf (pos + 124 * j) (pos + 124 * j + 124)) =
        slice buf pos (pos + 124) :: (List.range' 0 n).map fun j => slice buf (pos + 124 + 124 * j) (pos + 124 + 124 * j + 124) := by
      rw [List.range'_succ, List.map_cons, Nat.mul_zero, Nat.add_zero, Nat.zero_add]
      congr 1
      rw [← List.map_add_range' 0 n 1 (a := 1), List.map_map]
      apply List.map_congr_left
      intro j _
      simp only [Function.comp]
      have e : pos + 124 * (1 + j) = pos + 124 + 124 * j := by rw [Nat.mul_add, Nat.mul_one, Nat.add_assoc]
      rw [e]
    rw [e, sectorEntriesLoop.eq_def, if_pos (by omega)]
    rw [if_neg (fun hc => hc hl), logEntry_eq hl]
    by_cases hk : slotType (slice buf pos (pos + 124)) = 1 ∨ slotType (slice buf pos (pos + 124)) = 2
    · rw [listedMoves_known _ hk, if_pos hk, ← ih]
      unfold usedEntries
      dsimp only
      rw [Gen.items_cons, Gen.err_cons, List.filter_cons, entryType_eq hl]
      congr 1
      rcases hk with hk | hk
      · rw [hk]; rfl
      · rw [hk]; rfl
    · rw [listedMoves_unknown _ hk, if_neg hk]
      rfl

theorem logSectorsLoop_eq (file : Bytes) (size : Nat) (hs : size = 512 ∨ size = 4096)
    (ht : file.length % size ≠ 512) : ∀ (n i : Nat), n = file.length / size - i →
    i ≤ file.length / size ∨ n = 0 →
    logSectorsLoop file size i = (List.range' i n).map fun i => slice file (i * size) (i * size + size)
  | 0, i, hn, _ => by
    rw [logSectorsLoop, if_pos]
    · rfl
    · rw [slice_length]
      have hd := Nat.div_add_mod file.length size
      rw [Nat.mul_comm] at hd
      have hm := Nat.mod_lt file.length (show size > 0 by omega)
      by_cases hi : i = file.length / size
      · rw [hi]; omega
      · have h1 : file.length / size + 1 ≤ i := by omega
        have h2 := Nat.mul_le_mul_right size h1
        rw [Nat.add_mul, Nat.one_mul] at h2
        omega
  | n + 1, i, hn, _ => by
    have h1 : i + 1 ≤ file.length / size := by omega
    have h2 := Nat.mul_le_mul_right size h1
    have := Nat.div_mul_le_self file.length size
    rw [Nat.add_mul, Nat.one_mul] at h2
    rw [logSectorsLoop, if_neg (by rw [slice_length]; omega), List.range'_succ, List.map_cons,
      logSectorsLoop_eq file size hs ht n (i + 1) (by omega) (by omega)]

/-- C51: for every file and both sector sizes, the entries listed are exactly the moves in the slots of
the whole sectors after the header, in order; listing ends with NotImplementedError exactly when a slot
is of an unknown type, after the moves before it.  (If 512 bytes are left after the last whole sector
of 4096 bytes, they are taken for a sector: `C51_short_sector_accepted`.) -/
theorem C51_entries (file : Bytes) (size : Nat) (hs : size = 512 ∨ size = 4096) (ht : file.length % size ≠ 512) :
    logEntries file size = listedMoves (moveTableSlots file size) := by
  unfold logEntries logSectors moveTableSlots
  rw [logSectorsLoop_eq file size hs ht _ 1 rfl (by omega)]
  have hb : ∀ i ∈ List.range' 1 (file.length / size - 1), i * size + size ≤ file.length := by
    intro i hi
    have h1 : i + 1 ≤ file.length / size := by have := List.mem_range'_1.1 hi; omega
    have h2 := Nat.mul_le_mul_right size h1
    have := Nat.div_mul_le_self file.length size
    rw [Nat.add_mul, Nat.one_mul] at h2
    omega
  generalize List.range' 1 (file.length / size - 1) = l at hb
  induction l with
  | nil => rfl
  | cons i l ih =>
    rw [List.map_cons, List.foldr_cons, List.flatMap_cons, listedMoves_append, ih (fun x hx => hb x (List.mem_cons_of_mem _ hx))]
    congr 1
    have hi := hb i (List.mem_cons_self ..)
    have hl : (slice file (i * size) (i * size + size)).length = size := by rw [slice_length]; omega
    have hn : (slice file (i * size) (i * size + size)).length - 16 < 0 + 124 * slotsPerSector size + 124 ∧
        0 + 124 * slotsPerSector size ≤ (slice file (i * size) (i * size + size)).length - 16 := by
      rw [hl]; rcases hs with rfl | rfl <;> decide
    rw [sectorEntries, sectorEntriesLoop_eq _ (slotsPerSector size) 0 hn.1 hn.2]
    congr 1
    apply List.map_congr_left
    intro j hj
    have hj := List.mem_range'_1.1 hj
    rw [slice_slice _ _ _ _ _ (by rw [hl] at hn; omega)]
    congr 1 <;> omega

/-- C51: the sector size is found: 4096 when the 16 bytes at 512 are zero, which is so for a table with
sectors of 4096 bytes (the rest of its header sector is empty), and is not so for a table with sectors
of 512 bytes whose first slot is an entry of known type; a given size is used as it is. -/
theorem C51_sector_size (file : Bytes) : (∀ s, sectorSize file (some s) = s) ∧
    (slice file 512 528 = zeros 16 → sectorSize file none = 4096) ∧
    (slotType (slice file 512 636) = 1 ∨ slotType (slice file 512 636) = 2 → sectorSize file none = 512) := by
  refine ⟨fun _ => rfl, fun h => if_pos h, fun h => if_neg fun hz => ?_⟩
  have e : slice (slice file 512 636) 8 12 = slice (slice file 512 528) 8 12 := by
    rw [slice_slice _ _ _ _ _ (by omega), slice_slice _ _ _ _ _ (by omega)]
  unfold slotType at h
  rw [e, hz] at h
  revert h
  decide +kernel

/-- C51: the header is accepted exactly when it is a whole sector with the signature. -/
theorem C51_header_iff (file : Bytes) (size : Nat) (hs : size = 512 ∨ size = 4096) :
    (∃ h, getHeader file size = .ok h) ↔ size ≤ file.length ∧
      slice file 0 16 = [0xEC, 0xA7, 0x43, 0x66, 0xFE, 0xEF, 0xD1, 0x11, 0xB2, 0xAE, 0x00, 0xC0, 0x4F, 0xB9, 0x38, 0x6D] ∨
      (size = 4096 ∧ file.length = 512 ∧
      slice file 0 16 = [0xEC, 0xA7, 0x43, 0x66, 0xFE, 0xEF, 0xD1, 0x11, 0xB2, 0xAE, 0x00, 0xC0, 0x4F, 0xB9, 0x38, 0x6D]) := by
  have e : slice (slice file 0 size) 0 16 = slice file 0 16 := slice_slice _ _ _ _ _ (by omega)
  unfold getHeader header
  rw [e]
  have hl := slice_length file 0 size
  constructor
  · rintro ⟨h, hh⟩
    obtain ⟨c1, hh⟩ := of_ite_error hh
    obtain ⟨c2, hh⟩ := of_ite_error hh
    have c1 := Decidable.of_not_not c1
    have c2 := Decidable.of_not_not c2
    by_cases hz : size ≤ file.length
    · exact .inl ⟨hz, c2⟩
    · exact .inr ⟨by omega, by omega, c2⟩
  · intro h
    have h1 : (slice file 0 size).length = 512 ∨ (slice file 0 size).length = 4096 := by omega
    have h2 : slice file 0 16 = headerSignature := by
      rcases h with h | h
      · exact h.2
      · exact h.2.2
    exact ⟨_, by rw [if_neg (fun hc => hc h1), if_neg (fun hc => hc h2)]⟩

/-- C51: the range reported for an entry contains every moment the entry can stand for: only the upper
32 bits of the FILETIME are stored, and whatever the lower 32 bits were, the decoded datetime is in
the range. -/
theorem C51_timestamp (entry : Bytes) (h : entry.length = 124) (t : Nat) (ht : t / 2 ^ 32 = leNat (slice entry 116 120)) :
    ∃ lo hi, timestamp entry = .ok (lo, hi) ∧ ∀ us, Attributes.decodeFiletime t = some us →
      (∃ a, lo = some a ∧ a ≤ us) ∧ (∀ b, hi = some b → us ≤ b) := by
  unfold timestamp
  rw [unpackLE_of_length (by rw [slice_length]; omega)]
  refine ⟨_, _, rfl, ?_⟩
  have e1 : leNat (slice entry 116 120) <<< 32 = leNat (slice entry 116 120) * 2 ^ 32 := Nat.shiftLeft_eq _ _
  have e2 : leNat (slice entry 116 120) <<< 32 ||| 0xFFFFFFFF = leNat (slice entry 116 120) * 2 ^ 32 + 0xFFFFFFFF :=
    shiftLeft_or_of_lt (by decide)
  rw [e2, e1, ← ht]
  intro us hus
  have m1 := C26_monotone_partial (t / 2 ^ 32 * 2 ^ 32) t (by omega)
  have m2 := C26_monotone_partial t (t / 2 ^ 32 * 2 ^ 32 + 0xFFFFFFFF) (by omega)
  constructor
  · cases hd : Attributes.decodeFiletime (t / 2 ^ 32 * 2 ^ 32) with
    | none => rw [m1.1 hd] at hus; cases hus
    | some a => exact ⟨a, rfl, m1.2 a us hd hus⟩
  · intro b hb
    exact m2.2 us b hus hb

/-- C51 is not vacuous: a table with one used sector that has an unused slot and three moves. -/
def demoMoveSlot (type : Nat) (x : UInt8) : Bytes := List.replicate 8 x ++ natLE 4 type ++ List.replicate 112 x
def demoMoveTable : Bytes := headerSignature ++ zeros 496 ++ (demoMoveSlot 2 1 ++ demoMoveSlot 1 2 ++ demoMoveSlot 2 3 ++ demoMoveSlot 2 4 ++ zeros 16)
example : (logEntries demoMoveTable (sectorSize demoMoveTable none)) = ⟨[demoMoveSlot 2 1, demoMoveSlot 2 3, demoMoveSlot 2 4], none⟩ := by
  decide +kernel

/-- A truncated sector of 4096 bytes, cut to 512, is accepted as a sector. -/
theorem C51_short_sector_accepted : ∃ file, file.length = 4096 + 512 ∧
    logEntries file 4096 = ⟨[demoMoveSlot 2 1, demoMoveSlot 2 3, demoMoveSlot 2 4], none⟩ :=
  ⟨zeros 4096 ++ demoMoveTable.drop 512, by decide +kernel, by decide +kernel⟩

/-! ### C52 -/

/-- A stored Linux extended attribute: offset of the next one, lengths, name, value, padding. -/
def lxRecord (next : Nat) (a : Bytes × Bytes) : Bytes :=
  natLE 4 next ++ natLE 2 a.2.length ++ natLE 1 a.1.length ++ a.1 ++ a.2

/-- The attribute fits into a record. -/
structure LxStorable (a : Bytes × Bytes) (pad : Bytes) : Prop where
  name : 0 < a.1.length ∧ a.1.length < 256
  value : a.2.length < 65536
  /-- A record has at least 9 bytes (names are at least two characters long in practice). -/
  size : 9 ≤ (lxRecord 0 a ++ pad).length ∧ (lxRecord 0 a ++ pad).length < 2 ^ 32

/-- `b` stores the attributes `l` with any padding; the last one either has no next offset, or is
followed by at most three bytes. -/
inductive LxStored : List (Bytes × Bytes) → Bytes → Prop
  | last {a : Bytes × Bytes} {pad : Bytes} (h : LxStorable a pad) : LxStored [a] (lxRecord 0 a ++ pad)
  | lastWithOffset {a : Bytes × Bytes} {pad rest : Bytes} (h : LxStorable a pad) (hr : rest.length < 4) :
      LxStored [a] (lxRecord (lxRecord 0 a ++ pad).length a ++ pad ++ rest)
  | cons {a : Bytes × Bytes} {l : List (Bytes × Bytes)} {pad rest : Bytes} (h : LxStorable a pad) (hr : LxStored l rest) :
      LxStored (a :: l) (lxRecord (lxRecord 0 a ++ pad).length a ++ pad ++ rest)

theorem lxRecord_length (next : Nat) (a : Bytes × Bytes) : (lxRecord next a).length = 7 + a.1.length + a.2.length := by
  simp [lxRecord, natLE_length]; omega

theorem lx_fields (next : Nat) (a : Bytes × Bytes) (pad : Bytes) (h : LxStorable a pad) (hn : next < 2 ^ 32) :
    u32 (lxRecord next a ++ pad) 0 = next ∧ u16 (lxRecord next a ++ pad) 4 = a.2.length ∧
    u8 (lxRecord next a ++ pad) 6 = a.1.length ∧ slice (lxRecord next a ++ pad) 7 (7 + a.1.length) = a.1 ∧
    slice (lxRecord next a ++ pad) (7 + a.1.length) (7 + a.1.length + a.2.length) = a.2 := by
  obtain ⟨⟨h1, h2⟩, h3, h4⟩ := h
  refine ⟨?_, ?_, ?_, ?_, ?_⟩
  · have : slice (lxRecord next a ++ pad) 0 4 = natLE 4 next := by
      have := slice_mid [] (natLE 4 next) (natLE 2 a.2.length ++ natLE 1 a.1.length ++ a.1 ++ a.2 ++ pad) 0 4
        (by simp) (by simp [natLE_length])
      simpa [lxRecord] using this
    unfold u32; rw [this, leNat_natLE_of_lt (by omega)]
  · have : slice (lxRecord next a ++ pad) 4 6 = natLE 2 a.2.length := by
      have := slice_mid (natLE 4 next) (natLE 2 a.2.length) (natLE 1 a.1.length ++ a.1 ++ a.2 ++ pad) 4 6
        (by simp [natLE_length]) (by simp [natLE_length])
      simpa [lxRecord] using this
    unfold u16; rw [this, leNat_natLE_of_lt (by omega)]
  · have : slice (lxRecord next a ++ pad) 6 7 = natLE 1 a.1.length := by
      have := slice_mid (natLE 4 next ++ natLE 2 a.2.length) (natLE 1 a.1.length) (a.1 ++ a.2 ++ pad) 6 7
        (by simp [natLE_length]) (by simp [natLE_length])
      simpa [lxRecord] using this
    unfold u8; rw [this, leNat_natLE_of_lt (by omega)]
  · have := slice_mid (natLE 4 next ++ natLE 2 a.2.length ++ natLE 1 a.1.length) a.1 (a.2 ++ pad) 7 (7 + a.1.length)
      (by simp [natLE_length]) (by simp [natLE_length])
    simpa [lxRecord] using this
  · have := slice_mid (natLE 4 next ++ natLE 2 a.2.length ++ natLE 1 a.1.length ++ a.1) a.2 pad (7 + a.1.length) (7 + a.1.length + a.2.length)
      (by simp [natLE_length]; omega) (by simp [natLE_length]; omega)
    simpa [lxRecord] using this

theorem attributesLoop_last (a : Bytes × Bytes) (pad : Bytes) (h : LxStorable a pad) :
    attributesLoop (lxRecord 0 a ++ pad) = [a] := by
  obtain ⟨f1, f2, f3, f4, f5⟩ := lx_fields 0 a pad h (by omega)
  have hsz := h.size.1
  rw [attributesLoop, if_neg (by omega)]
  dsimp only
  rw [f1]
  simp only [Nat.lt_irrefl, gt_iff_lt, if_false]
  rw [f2, f3, f4, f5, if_neg (by omega), if_neg (by have := h.name.1; omega)]

theorem attributesLoop_cons (a : Bytes × Bytes) (pad rest : Bytes) (h : LxStorable a pad) :
    attributesLoop (lxRecord (lxRecord 0 a ++ pad).length a ++ pad ++ rest) = a :: attributesLoop rest := by
  obtain ⟨f1, f2, f3, f4, f5⟩ := lx_fields (lxRecord 0 a ++ pad).length a pad h h.size.2
  have hsz := h.size.1
  have hl : (lxRecord (lxRecord 0 a ++ pad).length a ++ pad).length = (lxRecord 0 a ++ pad).length := by
    simp [lxRecord_length]
  generalize hn : (lxRecord 0 a ++ pad).length = n at *
  generalize hb : lxRecord n a ++ pad = b at *
  have f1' : u32 (b ++ rest) 0 = n := by
    unfold u32; rw [slice_append_left _ _ _ _ (by omega)]; exact f1
  have hs : slice (b ++ rest) 0 n = b := by
    rw [slice_append_left _ _ _ _ (by omega), slice_all (by omega)]
  have hd : (b ++ rest).drop n = rest := by rw [← hl, List.drop_left]
  rw [attributesLoop, if_neg (by rw [List.length_append]; omega)]
  dsimp only
  rw [f1']
  simp only [if_pos (show n > 0 by omega)]
  rw [hs, f2, f3, f4, f5, hd, if_neg (by omega), if_neg (by have := h.name.1; omega)]

/-- C52: a well-formed LXXATTR value (4 bytes of header, then stored attributes) is accepted and is
parsed into exactly the stored (name, value) pairs, in order. -/
theorem C52_roundtrip (l : List (Bytes × Bytes)) (b : Bytes) (h : LxStored l b) :
    lxxattr (natLE 2 0 ++ natLE 2 1 ++ b) = .ok (natLE 2 0 ++ natLE 2 1 ++ b) ∧
    extendedAttributes (natLE 2 0 ++ natLE 2 1 ++ b) = l := by
  constructor
  · have hlen : 9 ≤ b.length := by
      cases h with
      | last h => exact h.size.1
      | @lastWithOffset a pad rest h hr =>
        have := h.size.1; simp only [List.length_append, lxRecord_length] at this ⊢; omega
      | @cons a l pad rest h hr =>
        have := h.size.1; simp only [List.length_append, lxRecord_length] at this ⊢; omega
    unfold lxxattr
    have e1 : u16 (natLE 2 0 ++ natLE 2 1 ++ b) 2 = 1 := by
      unfold u16; rw [slice_append_left _ _ _ _ (by decide)]; decide
    have e2 : u16 (natLE 2 0 ++ natLE 2 1 ++ b) 0 = 0 := by
      unfold u16; rw [slice_append_left _ _ _ _ (by decide)]; decide
    rw [e1, e2, if_neg (by rw [List.length_append, List.length_append, natLE_length, natLE_length]; omega), if_neg (by omega)]
  · unfold extendedAttributes
    have hd : (natLE 2 0 ++ natLE 2 1 ++ b).drop 4 = b := rfl
    rw [hd]
    clear hd
    induction h with
    | last h => exact attributesLoop_last _ _ h
    | lastWithOffset h hr =>
      rw [attributesLoop_cons _ _ _ h, attributesLoop, if_pos hr]
    | cons h hr ih => rw [attributesLoop_cons _ _ _ h, ih]

/-- C52 is not vacuous. -/
example : LxStored [([0x75, 0x78], [1, 2, 3]), ([0x75, 0x79, 0x7A], [])]
    (lxRecord 14 ([0x75, 0x78], [1, 2, 3]) ++ zeros 2 ++ (lxRecord 0 ([0x75, 0x79, 0x7A], []) ++ [])) :=
  .cons (pad := zeros 2) ⟨by decide, by decide, by decide⟩ (.last (pad := []) ⟨by decide, by decide, by decide⟩)

/-- The lower bound of 9 bytes in `LxStorable` is needed: an attribute with a name of one character and
an empty value, which takes 8 bytes, is not listed. -/
theorem C52_short_record_dropped : extendedAttributes (natLE 2 0 ++ natLE 2 1 ++ lxRecord 0 ([0x61], [])) = [] := by decide +kernel

/-- C52: for every byte string, parsing ends (the function is total and raises nothing), and the name
and the value of every pair are next to each other in the string; the name is not empty. -/
theorem C52_sound (b : Bytes) : ∀ a ∈ extendedAttributes b, a.1 ++ a.2 <:+: b ∧ a.1 ≠ [] := by
  unfold extendedAttributes
  suffices h : ∀ r : Bytes, ∀ a ∈ attributesLoop r, a.1 ++ a.2 <:+: r ∧ a.1 ≠ [] by
    intro a ha
    exact ⟨(h _ a ha).1.trans (List.drop_suffix _ _).isInfix, (h _ a ha).2⟩
  have key : ∀ (r blk : Bytes) (n v : Nat), 9 ≤ blk.length → 0 < n → blk <:+: r →
      (slice blk 7 (7 + n) ++ slice blk (7 + n) (7 + n + v) <:+: r ∧ slice blk 7 (7 + n) ≠ []) := by
    intro r blk n v h9 hn hi
    rw [slice_append_adj _ (by omega) (by omega)]
    refine ⟨?_, ?_⟩
    · exact (((List.take_prefix _ _).isInfix).trans (List.drop_suffix _ _).isInfix).trans hi
    · intro hc
      have := congrArg List.length hc
      rw [slice_length, List.length_nil] at this
      omega
  intro r
  fun_induction attributesLoop r with
  | case1 => simp
  | case2 => simp
  | case3 => simp
  | case4 r h4 nx blk h9 nl hnl vl nm v hpos ih =>
    intro a ha
    have hblk : blk = slice r 0 nx := if_pos hpos
    rcases List.mem_cons.1 ha with rfl | ha
    · exact key r blk nl vl (by omega) (by omega) (by rw [hblk, slice_zero]; exact (List.take_prefix _ _).isInfix)
    · obtain ⟨i1, i2⟩ := ih a ha
      · exact ⟨i1.trans (List.drop_suffix _ _).isInfix, i2⟩
  | case5 r h4 nx blk h9 nl hnl vl nm v hpos =>
    intro a ha
    have hblk : blk = r := if_neg hpos
    rw [List.mem_singleton] at ha
    subst ha
    exact key r blk nl vl (by omega) (by omega) (by rw [hblk]; exact List.infix_rfl)

/-- C52: the LXATTRB decoder accepts exactly the values of 56 bytes with format 0 and version 1, and
reads mode, UID, GID and device from their places. -/
theorem C52_lxattrb (value : Bytes) :
    (lxattrb value = .ok value ↔ value.length = 56 ∧ leNat (slice value 0 2) = 0 ∧ leNat (slice value 2 4) = 1) ∧
    (lxattrb value ≠ .ok value → lxattrb value = .error .ValueError) ∧
    (value.length = 56 → mode value = .ok (leNat (slice value 4 8)) ∧ uid value = .ok (leNat (slice value 8 12)) ∧
      gid value = .ok (leNat (slice value 12 16)) ∧ rdev value = .ok (leNat (slice value 16 20))) := by
  have e0 : u16 value 0 = leNat (slice value 0 2) := rfl
  have e2 : u16 value 2 = leNat (slice value 2 4) := rfl
  refine ⟨?_, ?_, fun h => ⟨?_, ?_, ?_, ?_⟩⟩
  · unfold lxattrb
    rw [e0, e2]
    constructor
    · intro h
      obtain ⟨c1, h⟩ := of_ite_error h
      obtain ⟨c2, h⟩ := of_ite_error h
      omega
    · rintro ⟨h1, h2, h3⟩
      rw [if_neg (by omega), if_neg (by omega)]
  · unfold lxattrb
    split
    · exact fun _ => rfl
    · split
      · exact fun _ => rfl
      · intro h; exact absurd rfl h
  all_goals exact unpackLE_of_length (by rw [slice_length]; omega)

theorem add_le_of_le {r ns : Nat} (x : Nat) (h : 2 * (r * 1000) ≤ 2 * ns + 1000) : 2 * (x + r * 1000) ≤ 2 * (x + ns) + 1000 := by omega
theorem add_le_of_le' {r ns : Nat} (x : Nat) (h : 2 * ns ≤ 2 * (r * 1000) + 1000) : 2 * (x + ns) ≤ 2 * (x + r * 1000) + 1000 := by omega

/-- C52: the timestamps of an LXATTRB value: OverflowError beyond the year 9999, otherwise within half
a microsecond of the stored seconds and nanoseconds. -/
theorem C52_times (value : Bytes) (h : value.length = 56) : ∀ p ∈ [(atime value, 20, 32), (mtime value, 24, 40), (chtime value, 28, 48)],
    (p.1 = .error .OverflowError ∧ secondsFrom1970 ≤ leNat (slice value p.2.2 (p.2.2 + 8)) + 5) ∨
    ∃ us, p.1 = .ok us ∧ 2 * (us * 1000) ≤ 2 * (leNat (slice value p.2.2 (p.2.2 + 8)) * 1000000000 + leNat (slice value p.2.1 (p.2.1 + 4))) + 1000 ∧
      2 * (leNat (slice value p.2.2 (p.2.2 + 8)) * 1000000000 + leNat (slice value p.2.1 (p.2.1 + 4))) ≤ 2 * (us * 1000) + 1000 := by
  have key : ∀ i j, i + 4 ≤ 56 → j + 8 ≤ 56 →
      (timeAt value i j = .error .OverflowError ∧ secondsFrom1970 ≤ leNat (slice value j (j + 8)) + 5) ∨
      ∃ us, timeAt value i j = .ok us ∧ 2 * (us * 1000) ≤ 2 * (leNat (slice value j (j + 8)) * 1000000000 + leNat (slice value i (i + 4))) + 1000 ∧
        2 * (leNat (slice value j (j + 8)) * 1000000000 + leNat (slice value i (i + 4))) ≤ 2 * (us * 1000) + 1000 := by
    intro i j hi hj
    unfold timeAt
    rw [unpackLE_of_length (by rw [slice_length]; omega), unpackLE_of_length (by rw [slice_length]; omega)]
    dsimp only
    have hlt := u32_lt value i
    unfold u32 at hlt
    obtain ⟨r1, r2⟩ := rhe_near (leNat (slice value i (i + 4))) 1000 (by omega)
    generalize leNat (slice value i (i + 4)) = ns at *
    generalize leNat (slice value j (j + 8)) = s at *
    unfold decodeUnixtime secondsFrom1970
    generalize Attributes.roundHalfEven ns 1000 = r at *
    split
    · exact .inl ⟨rfl, by omega⟩
    · split
      · exact .inl ⟨rfl, by omega⟩
      · refine .inr ⟨s * 1000000 + r, rfl, ?_, ?_⟩
        · rw [Nat.add_mul, Nat.mul_assoc]
          exact add_le_of_le _ r1
        · rw [Nat.add_mul, Nat.mul_assoc]
          exact add_le_of_le' _ r2
  intro p hp
  simp only [List.mem_cons, List.not_mem_nil, or_false] at hp
  rcases hp with rfl | rfl | rfl
  · exact key 20 32 (by omega) (by omega)
  · exact key 24 40 (by omega) (by omega)
  · exact key 28 48 (by omega) (by omega)

end Verif.Props
