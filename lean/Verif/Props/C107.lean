/-
C107: the list of the shadow copies, and concrete cases for C105-C107.
-/
import Verif.Props.C105
import Verif.Props.C44
import Verif.Props.C42_Concrete
import Verif.Props.C91_C93
import Verif.Proof.Decimal
namespace Verif.Props.Mount
open Verif.Scripts Verif.ShadowCopy Verif.Spec.Shadow Verif.Spec.Mount Verif.Spec.Text

/-! ### The items of a control block -/

/-- The item of a slot. -/
def itemOf (raw : Bytes) : Option Item :=
  if slotType raw = 2 then some (.store raw) else if slotType raw = 3 then some (.location raw) else none

/-- The exception for a slot that cannot be used. -/
def itemExc (raw : Bytes) : Exc := if slotType raw = 2 then .ControlBlockItemException else .ControlBlockException

/-- The loop over a list of slots. -/
def itemLoop : List Bytes → Gen Item
  | [] => .done
  | r :: rest =>
    if ValidItem r then (match itemOf r with | some i => .cons i (itemLoop rest) | none => itemLoop rest)
    else if slotType r = 0 then .done else .fail (itemExc r)

theorem itemsLoop_eq (b : Bytes) (hb : b.length = 0x4000) (k : Nat) : ∀ i, i + k = 127 →
    itemsLoop b (0x80 + 128 * i) = itemLoop ((List.range' i k).map fun i => slice b (0x80 + 128 * i) (0x80 + 128 * i + 128)) := by
  induction k with
  | zero =>
    intro i hi
    rw [itemsLoop, if_neg (by omega)]
    rfl
  | succ k ih =>
    intro i hi
    rw [itemsLoop, if_pos (by omega), List.range'_succ, List.map_cons, itemLoop]
    have e1 : slotType (slice b (0x80 + 128 * i) (0x80 + 128 * i + 128)) = u32 b (0x80 + 128 * i) := by
      unfold slotType u32
      rw [slice_slice _ _ _ _ _ (by omega)]
      rfl
    have e2 : slotSize (slice b (0x80 + 128 * i) (0x80 + 128 * i + 128)) = volumeSize (slice b (0x80 + 128 * i) (0x80 + 128 * i + 128)) := rfl
    have e3 : (slice b (0x80 + 128 * i) (0x80 + 128 * i + 128)).length = 0x80 := by rw [slice_length]; omega
    have e4 : (slice b (0x80 + 128 * i) (0x80 + 128 * i + 4)).length = 4 := by rw [slice_length]; omega
    rw [if_neg (by rw [e4]; exact fun h => h rfl)]
    dsimp only
    rw [show 0x80 + 128 * i + 0x80 = 0x80 + 128 * (i + 1) by omega, ih (i + 1) (by omega)]
    rw [show 0x80 + 128 * (i + 1) = 0x80 + 128 * i + 128 by omega, if_neg (c := (slice b (0x80 + 128 * i) (0x80 + 128 * i + 128)).length ≠ 0x80)
      (by rw [e3]; exact fun h => h rfl), ← e1, ← e2]
    generalize slice b (0x80 + 128 * i) (0x80 + 128 * i + 128) = r
    generalize itemLoop _ = g
    unfold itemOf itemExc
    have hv : ValidItem r ↔ (1 ≤ slotType r ∧ slotType r ≤ 3) ∧ ¬ (slotType r = 2 ∧ slotSize r = 0) := Iff.rfl
    by_cases h0 : slotType r = 0
    · rw [if_pos h0, if_neg (by rw [hv]; omega), if_pos h0]
    rw [if_neg h0]
    by_cases h1 : slotType r = 1
    · rw [if_neg (by simp [h1]), if_pos h1, if_pos (by rw [hv]; omega), if_neg (by omega), if_neg (by omega)]
    by_cases h2 : slotType r = 2
    · rw [if_neg (by simp [h2]), if_neg h1, if_pos h2, if_pos h2, if_pos h2]
      by_cases hz : slotSize r = 0
      · rw [if_pos hz, if_neg (by rw [hv]; omega), if_neg h0]
      · rw [if_neg hz, if_pos (by rw [hv]; omega)]
    by_cases h3 : slotType r = 3
    · rw [if_neg (by simp [h3]), if_neg h1, if_neg h2, if_pos (by rw [hv]; omega), if_neg h2, if_pos h3]
    rw [if_pos (by simp [h1, h2, h3]), if_neg (by rw [hv]; omega), if_neg h0, if_neg h2]

theorem range_eq (n : Nat) : List.range n = List.range' 0 n := List.range_eq_range'

theorem itemLoop_eq (l : List Bytes) : itemLoop l = ⟨(l.takeWhile fun r => decide (ValidItem r)).filterMap itemOf,
    (match l.find? fun r => decide (¬ ValidItem r) with
      | some r => if slotType r = 0 then none else some r
      | none => none).map itemExc⟩ := by
  induction l with
  | nil => rfl
  | cons r rest ih =>
    rw [itemLoop]
    by_cases hv : ValidItem r
    · rw [if_pos hv, ih, List.takeWhile_cons_of_pos (p := fun r : Bytes => decide (ValidItem r)) (by simpa using hv),
        List.find?_cons_of_neg (p := fun r : Bytes => decide (¬ ValidItem r)) (by simpa using hv), List.filterMap_cons]
      cases itemOf r <;> rfl
    · rw [if_neg hv, List.takeWhile_cons_of_neg (p := fun r : Bytes => decide (ValidItem r)) (by simpa using hv),
        List.find?_cons_of_pos (p := fun r : Bytes => decide (¬ ValidItem r)) (by simpa using hv)]
      dsimp only
      split <;> rfl

theorem items_eq (b : Bytes) (hb : b.length = 0x4000) : items b = ⟨(validItems b).filterMap itemOf, (badSlot b).map itemExc⟩ := by
  unfold items
  have := itemsLoop_eq b hb 127 0 rfl
  rw [show 0x80 + 128 * 0 = 0x80 from rfl, ← range_eq] at this
  rw [this, itemLoop_eq]
  rfl

/-- What is said about a shadow copy, from the bytes of its slot. -/
def describe (raw : Bytes) : Information :=
  ⟨leNat (slice raw 32 40), Attributes.decodeFiletime (leNat (slice raw 48 56)), slice raw 16 32, leNat (slice raw 8 16)⟩

theorem stores_eq (b : Bytes) (hb : b.length = 0x4000) : storesOf (items b).items = (shadowSlots b).map describe := by
  rw [items_eq b hb]
  unfold storesOf shadowSlots
  dsimp only
  induction validItems b with
  | nil => rfl
  | cons r rest ih =>
    rw [List.filterMap_cons]
    unfold itemOf
    by_cases h2 : slotType r = 2
    · rw [if_pos h2, List.filter_cons_of_pos (p := fun r : Bytes => decide (slotType r = 2)) (by simpa using h2), List.map_cons]
      dsimp only
      rw [List.filterMap_cons]
      dsimp only
      exact congrArg (describe r :: ·) ih
    · rw [if_neg h2, List.filter_cons_of_neg (p := fun r : Bytes => decide (slotType r = 2)) (by simpa using h2)]
      by_cases h3 : slotType r = 3
      · rw [if_pos h3]
        dsimp only
        rw [List.filterMap_cons]
        exact ih
      · rw [if_neg h3]
        exact ih

/-- C107: when no slot is bad, the shadow copies are those of the slots of all the control blocks, in order. -/
theorem C107_shadows (blocks : List Bytes) (hl : ∀ b ∈ blocks, b.length = 0x4000) (hb : ∀ b ∈ blocks, badSlot b = none) :
    shadows blocks = ⟨(blocks.flatMap shadowSlots).map fun raw =>
      ⟨leNat (slice raw 32 40), Attributes.decodeFiletime (leNat (slice raw 48 56)), slice raw 16 32, leNat (slice raw 8 16)⟩, none⟩ := by
  show _ = (⟨(blocks.flatMap shadowSlots).map describe, none⟩ : Gen Information)
  induction blocks with
  | nil => rfl
  | cons b rest ih =>
    rw [shadows, ih (fun x hx => hl x (List.mem_cons_of_mem _ hx)) (fun x hx => hb x (List.mem_cons_of_mem _ hx)),
      stores_eq b (hl b (by simp)), items_eq b (hl b (by simp)), hb b (by simp), List.flatMap_cons, List.map_append]
    rfl

/-- C107: a bad slot ends the list with an exception, after all the shadow copies before it. -/
theorem C107_bad_slot (before : List Bytes) (b : Bytes) (after : List Bytes) (hl : ∀ x ∈ before ++ [b], x.length = 0x4000)
    (hb : ∀ x ∈ before, badSlot x = none) (raw : Bytes) (hr : badSlot b = some raw) :
    (shadows (before ++ b :: after)).items = ((before ++ [b]).flatMap shadowSlots).map (fun raw =>
      ⟨leNat (slice raw 32 40), Attributes.decodeFiletime (leNat (slice raw 48 56)), slice raw 16 32, leNat (slice raw 8 16)⟩) ∧
    (shadows (before ++ b :: after)).err = some (if slotType raw = 2 then .ControlBlockItemException else .ControlBlockException) := by
  show _ = ((before ++ [b]).flatMap shadowSlots).map describe ∧ _ = some (itemExc raw)
  induction before with
  | nil =>
    rw [List.nil_append, List.nil_append, shadows, stores_eq b (hl b (by simp)), items_eq b (hl b (by simp)), hr, List.flatMap_cons,
      List.flatMap_nil, List.append_nil]
    exact ⟨rfl, rfl⟩
  | cons x rest ih =>
    obtain ⟨i1, i2⟩ := ih (fun y hy => hl y (List.mem_cons_of_mem _ hy)) (fun y hy => hb y (List.mem_cons_of_mem _ hy))
    rw [List.cons_append, List.cons_append, shadows, stores_eq x (hl x (by simp)), items_eq x (hl x (by simp)), hb x (by simp),
      List.flatMap_cons, List.map_append]
    exact ⟨congrArg (_ ++ ·) i1, i2⟩

/-! ### The lines -/

theorem datetimeStr_denotes (t : Nat) (h : t < 3652059 * 86400000000) :
    (t % 1000000 ≠ 0 ∧ Denotes (datetimeStr t) t) ∨ (t % 1000000 = 0 ∧ Denotes (datetimeStr t ++ Str.ofString ".000000") t) := by
  have key := Proof.Calendar.strftime_denotes h
  by_cases hz : t % 1000000 = 0
  · refine .inr ⟨hz, ?_⟩
    have : datetimeStr t ++ Str.ofString ".000000" = strftime t := by
      unfold datetimeStr strftime
      dsimp only
      rw [if_pos hz, hz, List.append_nil]
      rw [show Str.ofString ".000000" = [0x2E] ++ fixedDec 6 0 by decide]
      simp only [List.append_assoc]
    rw [this]
    exact key
  · refine .inl ⟨hz, ?_⟩
    have : datetimeStr t = strftime t := by
      unfold datetimeStr strftime
      dsimp only
      rw [if_neg hz]
      simp only [List.append_assoc]
    rw [this]
    exact key

theorem line_isLine (raw : Bytes) : IsLine raw (shadowLine (describe raw)) := by
  refine ⟨decimal (leNat (slice raw 32 40)), _, rfl, Proof.Decimal.decimal_value _, Proof.Decimal.decimal_canonical _, ?_⟩
  show match Attributes.decodeFiletime (leNat (slice raw 48 56)) with | none => _ | some t => _
  unfold describe
  dsimp only
  cases hd : Attributes.decodeFiletime (leNat (slice raw 48 56)) with
  | none => rfl
  | some t =>
    dsimp only
    have e : dayNumber 1601 1 1 * 86400000000 = epoch1601 := epochs.1.symm
    rw [e]
    have hm : (epoch1601 + t) % 1000000 = t % 1000000 := by unfold epoch1601; omega
    have hlt : epoch1601 + t < 3652059 * 86400000000 := by
      unfold Attributes.decodeFiletime at hd
      split at hd
      · next h =>
        cases hd
        unfold Attributes.microsecondsFrom1601 at h
        unfold epoch1601
        omega
      · cases hd
    have := datetimeStr_denotes _ hlt
    rw [hm] at this
    exact this

/-- The control blocks of an opened volume are whole blocks. -/
theorem opened_length {img : Image} {fuel : Nat} {o : Opened} (h : openVolume img fuel = some (.ok o)) (hs : img.storage = none) :
    ∀ b ∈ o.controlBlocks, b.length = 0x4000 := by
  unfold openVolume at h
  rw [hs] at h
  dsimp only at h
  split at h
  · cases h
  split at h
  · cases h
  split at h
  · cases h
  · cases h
  · rename_i cbs hc
    cases h
    unfold controlBlocks at hc
    split at hc
    · cases hc
    · exact chain_forall (α := Bytes) _ _ _ (fun b => b.length = 0x4000) (fun b a hb ha => by cases ha; exact hb)
        (fun b hb => block_length _ _ hb) _ _ _ hc

/-- C107: on a volume with shadow copies, the first line says so, and a line for each of the shadow copies follows. -/
theorem C107_list (volume : Bytes) (offset fuel : Nat) (o : Opened) (h : openVolume ⟨volume, offset, none, none⟩ fuel = some (.ok o))
    (hb : ∀ b ∈ o.controlBlocks, badSlot b = none) :
    ∃ lines, listShadows volume offset fuel = some ⟨Str.ofString "Shadow copies are enabled" :: lines, none⟩ ∧
      lines.length = (o.controlBlocks.flatMap shadowSlots).length ∧
      ∀ (i : Nat) raw line, (o.controlBlocks.flatMap shadowSlots)[i]? = some raw → lines[i]? = some line → IsLine raw line := by
  have hs := C107_shadows _ (opened_length h rfl) hb
  have hs : shadows o.controlBlocks = ⟨(o.controlBlocks.flatMap shadowSlots).map describe, none⟩ := hs
  refine ⟨((o.controlBlocks.flatMap shadowSlots).map describe).map shadowLine, ?_, by rw [List.length_map, List.length_map], ?_⟩
  · unfold listShadows
    rw [h]
    dsimp only
    rw [hs]
    rfl
  · intro i raw line hr hl
    rw [List.map_map, List.getElem?_map, hr] at hl
    cases hl
    exact line_isLine raw

/-! ### The two other messages -/

theorem chain_error {α : Type} (vol : Bytes × Nat) (k : Kind) (f : Bytes → Except Exc α) (fuel offset : Nat) (e : Exc)
    (h : chain vol k f fuel offset = some (.error e)) :
    e = .OverflowError ∨ e = k.exc ∨ e = .ShadowCopyException ∨ ∃ b, f b = .error e := by
  induction fuel generalizing offset with
  | zero =>
    rw [chain] at h
    split at h
    · cases h
    · cases h
  | succ fuel ih =>
    rw [chain] at h
    split at h
    · cases h
    · split at h
      · rename_i e' hs
        cases h
        exact .inl (error_of_seekRead hs)
      rename_i buf _
      split at h
      · rename_i e' hs
        cases h
        unfold block at hs
        split at hs
        · cases hs; exact .inr (.inl rfl)
        split at hs
        · cases hs; exact .inr (.inr (.inl rfl))
        split at hs
        · cases hs; exact .inr (.inl rfl)
        split at hs
        · cases hs; exact .inr (.inl rfl)
        · cases hs
      split at h
      · cases h
      split at h
      · rename_i e' ha
        cases h
        exact .inr (.inr (.inr ⟨buf, ha⟩))
      split at h
      · cases h
      · rename_i e' hr
        cases h
        exact ih _ hr
      · cases h

instance (start : Bytes) : Decidable (Recognised start) := by unfold Recognised; infer_instance
instance (start : Bytes) : Decidable (IsStartBlock start) := by unfold IsStartBlock; infer_instance

theorem startBlock_cases (buf : Bytes) : disabled (startBlock buf) =
    if buf.length ≠ 8192 then .error .ShadowCopiesDisabledException
    else if ¬ Recognised buf then .error .InvalidVolume
    else if ¬ IsStartBlock buf then .error .ShadowCopiesDisabledException
    else .ok () := by
  unfold startBlock
  dsimp only
  by_cases h1 : buf.length ≠ 8192
  · rw [if_pos h1, if_pos h1]; rfl
  rw [if_neg h1, if_neg h1]
  have e1 : (slice buf 3 7 ∉ ([[0x4E, 0x54, 0x46, 0x53], [0x52, 0x65, 0x46, 0x53]] : List Bytes)) ↔ ¬ Recognised buf := by
    unfold Recognised
    rw [show ascii "NTFS" = [0x4E, 0x54, 0x46, 0x53] by decide, show ascii "ReFS" = [0x52, 0x65, 0x46, 0x53] by decide]
    simp
  by_cases h2 : ¬ Recognised buf
  · rw [if_pos (e1.mpr h2), if_pos h2]; rfl
  rw [if_neg (fun h => h2 (e1.mp h)), if_neg h2]
  have s0 : slice (slice buf 7680 8192) 0 16 = slice buf 7680 7696 := by rw [slice_slice _ _ _ _ _ (by omega)]
  have s1 : offset1 (slice buf 7680 8192) = leNat (slice buf 7704 7712) := by unfold offset1 u64; rw [slice_slice _ _ _ _ _ (by omega)]
  have s2 : offset2 (slice buf 7680 8192) = leNat (slice buf 7712 7720) := by unfold offset2 u64; rw [slice_slice _ _ _ _ _ (by omega)]
  have s3 : offset3 (slice buf 7680 8192) = leNat (slice buf 7720 7728) := by unfold offset3 u64; rw [slice_slice _ _ _ _ _ (by omega)]
  have s4 : blockType (slice buf 7680 8192) = leNat (slice buf 7700 7704) := by unfold blockType u32; rw [slice_slice _ _ _ _ _ (by omega)]
  rw [s0, s1, s2, s3, s4]
  have hg : diffAreaGuid = blockGuid := rfl
  rw [hg]
  by_cases a0 : slice buf 7680 7696 ≠ blockGuid
  · rw [if_pos a0, if_pos (fun h => a0 h.1)]; rfl
  rw [if_neg a0]
  by_cases a1 : leNat (slice buf 7704 7712) ≠ 7680
  · rw [if_pos a1, if_pos (fun h => a1 h.2.2.1)]; rfl
  rw [if_neg a1]
  by_cases a2 : leNat (slice buf 7712 7720) ≠ 7680
  · rw [if_pos a2, if_pos (fun h => a2 h.2.2.2.1)]; rfl
  rw [if_neg a2]
  by_cases a3 : leNat (slice buf 7720 7728) ≠ 0
  · rw [if_pos a3, if_pos (fun h => a3 h.2.2.2.2)]; rfl
  rw [if_neg a3]
  by_cases a4 : leNat (slice buf 7700 7704) ≠ 1
  · rw [if_pos a4, if_pos (fun h => a4 h.2.1)]; rfl
  rw [if_neg a4, if_neg (fun h => h ⟨Decidable.not_not.mp a0, Decidable.not_not.mp a4, Decidable.not_not.mp a1, Decidable.not_not.mp a2,
    Decidable.not_not.mp a3⟩)]
  rfl

/-- What opening a volume gives when its start block is in order. -/
theorem open_after_start {volume : Bytes} {offset fuel : Nat} (ho : offset < 2 ^ 63) (h1 : (volumeStart volume offset).length = 8192)
    (h2 : Recognised (volumeStart volume offset)) (h3 : IsStartBlock (volumeStart volume offset)) :
    (∃ e, openVolume ⟨volume, offset, none, none⟩ fuel = some (.error e) ∧ e ≠ .ShadowCopiesDisabledException ∧ e ≠ .InvalidVolume) ∨
    (∃ o, openVolume ⟨volume, offset, none, none⟩ fuel = some (.ok o) ∧ o.storageBlocks = o.controlBlocks) ∨
    openVolume ⟨volume, offset, none, none⟩ fuel = none := by
  unfold openVolume
  dsimp only
  rw [seekRead_ok ho (by decide)]
  dsimp only
  rw [show slice volume offset (offset + 8192) = volumeStart volume offset from rfl, startBlock_cases, if_neg (by omega), if_neg (fun h => h h2),
    if_neg (fun h => h h3)]
  dsimp only
  unfold controlBlocks
  cases hf : firstControlBlockOffset (volumeStart volume offset) with
  | error e =>
    refine .inl ⟨e, rfl, ?_⟩
    unfold firstControlBlockOffset at hf
    dsimp only at hf
    split at hf
    · cases hf; exact ⟨(fun h => by cases h), (fun h => by cases h)⟩
    · cases hf
  | ok first =>
    dsimp only
    cases hc : chain (volume, offset) .control (fun b => Except.ok b) fuel first with
    | none => exact .inr (.inr rfl)
    | some x =>
      cases x with
      | ok cbs => exact .inr (.inl ⟨_, rfl, rfl⟩)
      | error e =>
        refine .inl ⟨e, rfl, ?_⟩
        rcases chain_error _ _ _ _ _ _ hc with rfl | rfl | rfl | ⟨b, hb⟩
        · exact ⟨(fun h => by cases h), (fun h => by cases h)⟩
        · exact ⟨(fun h => by cases h), (fun h => by cases h)⟩
        · exact ⟨(fun h => by cases h), (fun h => by cases h)⟩
        · cases hb

theorem messages_differ : Str.ofString "Shadow copies are enabled" ≠ Str.ofString "Shadow copies are disabled" ∧
    Str.ofString "Shadow copies are enabled" ≠ Str.ofString "Not a valid volume" ∧
    Str.ofString "Shadow copies are disabled" ≠ Str.ofString "Not a valid volume" := by decide +kernel

theorem list_cases (volume : Bytes) (offset fuel : Nat) (ho : offset < 2 ^ 63) :
    listShadows volume offset fuel =
      if (volumeStart volume offset).length ≠ 8192 then some ⟨[Str.ofString "Shadow copies are disabled"], none⟩
      else if ¬ Recognised (volumeStart volume offset) then some ⟨[Str.ofString "Not a valid volume"], none⟩
      else if ¬ IsStartBlock (volumeStart volume offset) then some ⟨[Str.ofString "Shadow copies are disabled"], none⟩
      else listShadows volume offset fuel := by
  by_cases h1 : (volumeStart volume offset).length ≠ 8192
  · rw [if_pos h1]
    unfold listShadows openVolume
    dsimp only
    rw [seekRead_ok ho (by decide)]
    dsimp only
    rw [show slice volume offset (offset + 8192) = volumeStart volume offset from rfl, startBlock_cases, if_pos h1]
    rfl
  rw [if_neg h1]
  by_cases h2 : ¬ Recognised (volumeStart volume offset)
  · rw [if_pos h2]
    unfold listShadows openVolume
    dsimp only
    rw [seekRead_ok ho (by decide)]
    dsimp only
    rw [show slice volume offset (offset + 8192) = volumeStart volume offset from rfl, startBlock_cases, if_neg h1, if_pos h2]
    rfl
  rw [if_neg h2]
  by_cases h3 : ¬ IsStartBlock (volumeStart volume offset)
  · rw [if_pos h3]
    unfold listShadows openVolume
    dsimp only
    rw [seekRead_ok ho (by decide)]
    dsimp only
    rw [show slice volume offset (offset + 8192) = volumeStart volume offset from rfl, startBlock_cases, if_neg h1, if_neg h2, if_pos h3]
    rfl
  rw [if_neg h3]

theorem list_after_start {volume : Bytes} {offset fuel : Nat} (ho : offset < 2 ^ 63) (h1 : (volumeStart volume offset).length = 8192)
    (h2 : Recognised (volumeStart volume offset)) (h3 : IsStartBlock (volumeStart volume offset)) :
    listShadows volume offset fuel ≠ some ⟨[Str.ofString "Shadow copies are disabled"], none⟩ ∧
    listShadows volume offset fuel ≠ some ⟨[Str.ofString "Not a valid volume"], none⟩ := by
  obtain ⟨m1, m2, m3⟩ := messages_differ
  unfold listShadows
  rcases open_after_start (fuel := fuel) ho h1 h2 h3 with ⟨e, he, n1, n2⟩ | ⟨o, he, -⟩ | he
  · rw [he]
    dsimp only
    rw [if_neg n1, if_neg n2]
    exact ⟨(fun h => by cases h), (fun h => by cases h)⟩
  · rw [he]
    dsimp only
    exact ⟨fun h => m1 (by injection h with h; injection h with h h'; injection h),
      fun h => m2 (by injection h with h; injection h with h h'; injection h)⟩
  · rw [he]
    exact ⟨(fun h => by cases h), (fun h => by cases h)⟩

/-- C107: the shadow copies are said to be disabled exactly when the image ends before 8192 bytes of the volume, or when the volume is
one of NTFS or ReFS without a start block of shadow copies. -/
theorem C107_disabled (volume : Bytes) (offset fuel : Nat) (ho : offset < 2 ^ 63) :
    listShadows volume offset fuel = some ⟨[Str.ofString "Shadow copies are disabled"], none⟩ ↔
      ((volumeStart volume offset).length < 8192 ∨ (Recognised (volumeStart volume offset) ∧ ¬ IsStartBlock (volumeStart volume offset))) := by
  have hle : (volumeStart volume offset).length ≤ 8192 := by unfold volumeStart; rw [slice_length]; omega
  obtain ⟨m1, m2, m3⟩ := messages_differ
  have hc := list_cases volume offset fuel ho
  by_cases h1 : (volumeStart volume offset).length ≠ 8192
  · rw [if_pos h1] at hc
    rw [hc]
    exact iff_of_true rfl (.inl (by omega))
  rw [if_neg h1] at hc
  by_cases h2 : ¬ Recognised (volumeStart volume offset)
  · rw [if_pos h2] at hc
    rw [hc]
    refine iff_of_false (fun h => m3 (by injection h with h; injection h with h h'; injection h with h h'; exact h.symm)) ?_
    rintro (h | h)
    · omega
    · exact h2 h.1
  rw [if_neg h2] at hc
  by_cases h3 : ¬ IsStartBlock (volumeStart volume offset)
  · rw [if_pos h3] at hc
    rw [hc]
    exact iff_of_true rfl (.inr ⟨Decidable.not_not.mp h2, h3⟩)
  · refine iff_of_false (list_after_start ho (by omega) (Decidable.not_not.mp h2) (Decidable.not_not.mp h3)).1 ?_
    rintro (h | h)
    · omega
    · exact h3 h.2

/-- C107: a volume is said to be invalid exactly when its first sector is neither that of NTFS nor that of ReFS. -/
theorem C107_invalid (volume : Bytes) (offset fuel : Nat) (ho : offset < 2 ^ 63) :
    listShadows volume offset fuel = some ⟨[Str.ofString "Not a valid volume"], none⟩ ↔
      ((volumeStart volume offset).length = 8192 ∧ ¬ Recognised (volumeStart volume offset)) := by
  obtain ⟨m1, m2, m3⟩ := messages_differ
  have hc := list_cases volume offset fuel ho
  by_cases h1 : (volumeStart volume offset).length ≠ 8192
  · rw [if_pos h1] at hc
    rw [hc]
    exact iff_of_false (fun h => m3 (by injection h with h; injection h with h h'; injection h)) (fun h => h1 h.1)
  rw [if_neg h1] at hc
  by_cases h2 : ¬ Recognised (volumeStart volume offset)
  · rw [if_pos h2] at hc
    rw [hc]
    exact iff_of_true rfl ⟨by omega, h2⟩
  rw [if_neg h2] at hc
  by_cases h3 : ¬ IsStartBlock (volumeStart volume offset)
  · rw [if_pos h3] at hc
    rw [hc]
    exact iff_of_false (fun h => m3 (by injection h with h; injection h with h h'; injection h)) (fun h => h2 h.2)
  · exact iff_of_false (list_after_start ho (by omega) (Decidable.not_not.mp h2) (Decidable.not_not.mp h3)).2 (fun h => h2 h.2)

/-! ### What is listed can be selected -/

theorem listed_iff (blocks : List Bytes) (hl : ∀ b ∈ blocks, b.length = 0x4000) (hb : ∀ b ∈ blocks, badSlot b = none) (raw : Bytes) :
    (allItems blocks).err = none ∧ (Item.store raw ∈ (allItems blocks).items ↔ raw ∈ blocks.flatMap shadowSlots) := by
  induction blocks with
  | nil => exact ⟨rfl, by simp [allItems]⟩
  | cons b rest ih =>
    obtain ⟨i1, i2⟩ := ih (fun x hx => hl x (List.mem_cons_of_mem _ hx)) (fun x hx => hb x (List.mem_cons_of_mem _ hx))
    have e : items b = ⟨(validItems b).filterMap itemOf, none⟩ := by rw [items_eq b (hl b (by simp)), hb b (by simp)]; rfl
    rw [allItems, e]
    refine ⟨i1, ?_⟩
    show Item.store raw ∈ (validItems b).filterMap itemOf ++ (allItems rest).items ↔ _
    rw [List.mem_append, i2, List.flatMap_cons, List.mem_append]
    have : Item.store raw ∈ (validItems b).filterMap itemOf ↔ raw ∈ shadowSlots b := by
      unfold shadowSlots
      rw [List.mem_filterMap, List.mem_filter]
      constructor
      · rintro ⟨r, hr, h⟩
        unfold itemOf at h
        split at h
        · next h2 => cases h; exact ⟨hr, by simpa using h2⟩
        · split at h
          · cases h
          · cases h
      · rintro ⟨hr, h⟩
        exact ⟨raw, hr, by unfold itemOf; rw [if_pos (by simpa using h)]⟩
    rw [this]

theorem guidOfPosition_found (n : Nat) (bs : List Bytes) (found : Option Bytes) (he : (allItems bs).err = none) :
    ∃ g, guidOfPosition n bs found = .ok g ∧
      ((found.isSome ∨ ∃ raw, Item.store raw ∈ (allItems bs).items ∧ stackPosition raw = n) → g.isSome) := by
  induction bs generalizing found with
  | nil =>
    refine ⟨found, rfl, ?_⟩
    rintro (h | ⟨raw, h, -⟩)
    · exact h
    · simp [allItems] at h
  | cons b rest ih =>
    rw [allItems] at he ⊢
    obtain ⟨e1, e2, e3⟩ := gen_append_items _ _ he
    rw [e1, guidOfPosition]
    have key : ∃ g', guidInBlock b n = .ok g' ∧ ((∃ raw, Item.store raw ∈ (items b).items ∧ stackPosition raw = n) → g'.isSome) := by
      unfold guidInBlock
      split
      · next g hg => exact ⟨some g, rfl, fun _ => rfl⟩
      · next hg =>
        rw [e2]
        refine ⟨none, rfl, ?_⟩
        rintro ⟨raw, h1, h2⟩
        have := List.findSome?_eq_none_iff.mp hg (.store raw) h1
        dsimp only at this
        rw [if_pos h2] at this
        cases this
    obtain ⟨g', g1, g2⟩ := key
    rw [g1]
    dsimp only
    obtain ⟨g, h1, h2⟩ := ih (g'.orElse fun _ => found) e3
    refine ⟨g, h1, fun h => h2 ?_⟩
    have hor : ∀ (a b : Option Bytes), (a.isSome ∨ b.isSome) → (a.orElse fun _ => b).isSome := by
      intro a b h
      cases a with
      | some x => rfl
      | none => rcases h with h | h; exact absurd h (by simp); exact h
    rcases h with h | ⟨raw, hr, hp⟩
    · exact .inl (hor _ _ (.inr h))
    · rcases List.mem_append.mp hr with hr | hr
      · exact .inl (hor _ _ (.inl (g2 ⟨raw, hr, hp⟩)))
      · exact .inr ⟨raw, hr, hp⟩

theorem readStore_error {img : Image} {c2 c3 : Bytes} {fuel : Nat} {e : Exc} (h : readStore img c2 c3 fuel = some (.error e)) :
    e ≠ .ShadowCopyNotFoundException := by
  have hc : ∀ {α : Type} (vol : Bytes × Nat) (k : Kind) (f : Bytes → Except Exc α) (fuel offset : Nat) (e : Exc),
      chain vol k f fuel offset = some (.error e) → (∀ b x, f b = .error x → x ≠ .ShadowCopyNotFoundException) →
      e ≠ .ShadowCopyNotFoundException := by
    intro α vol k f fuel offset e h hf
    rcases chain_error vol k f fuel offset e h with rfl | rfl | rfl | ⟨b, hb⟩
    · exact fun h => by cases h
    · cases k <;> exact fun h => by cases h
    · exact fun h => by cases h
    · exact hf b e hb
  have hbm : ∀ (vol : Bytes × Nat) (size offset : Nat) (e : Exc), readBitmap vol size offset fuel = some (.error e) →
      e ≠ .ShadowCopyNotFoundException := by
    intro vol size offset e h
    unfold readBitmap at h
    dsimp only at h
    split at h
    · cases h
    · rename_i x hx; cases h; exact hc _ _ _ _ _ _ hx (fun b x hx => by cases hx)
    · cases h
  have hloc : ∀ (data : Bytes) (offset : Nat) (e : Exc), locationLoop data offset = .error e →
      e ≠ .ShadowCopyNotFoundException := by
    intro data offset e h
    clear hbm hc
    fun_induction locationLoop data offset with
    | case1 => cases h
    | case2 => cases h; exact fun h => by cases h
    | case3 _ _ _ _ _ _ hx ih => cases h; exact ih hx
    | case4 => cases h
    | case5 => cases h
  have hdiff : ∀ (data : Bytes) (offset : Nat) (e : Exc), diffAreaLoop data offset = .error e →
      e ≠ .ShadowCopyNotFoundException := by
    intro data offset e h
    clear hbm hc hloc
    fun_induction diffAreaLoop data offset with
    | case1 => cases h; exact fun h => by cases h
    | case2 => cases h; exact fun h => by cases h
    | case3 => cases h
    | case4 _ _ _ _ _ _ _ hx ih => cases h; exact ih hx
    | case5 => cases h
    | case6 => cases h
  unfold readStore at h
  split at h
  · cases h
  · rename_i x hx; cases h; exact hbm _ _ _ _ hx
  split at h
  · cases h
  · rename_i x hx; cases h; exact hbm _ _ _ _ hx
  split at h
  · cases h
  · rename_i x hx
    cases h
    unfold readLocations at hx
    split at hx
    · cases hx
    · rename_i y hy; cases hx; exact hc _ _ _ _ _ _ hy (fun b x hx => hloc _ _ _ hx)
    · cases hx
  split at h
  · rename_i x hx
    cases h
    unfold readApplication at hx
    split at hx
    · split at hx
      · rename_i y hy; cases hx; rw [error_of_seekRead hy]; exact fun h => by cases h
      split at hx
      · rename_i y hy
        cases hx
        unfold applicationBlock at hy
        split at hy
        · cases hy; exact fun h => by cases h
        split at hy
        · cases hy; exact fun h => by cases h
        split at hy
        · cases hy; exact fun h => by cases h
        · cases hy
      split at hx
      · cases hx
      · cases hx
    · cases hx
  split at h
  · cases h
  · rename_i x hx
    cases h
    unfold readDiffArea at hx
    split at hx
    · cases hx
    · rename_i y hy; cases hx; exact hc _ _ _ _ _ _ hy (fun b x hx => hdiff _ _ _ hx)
    · cases hx
  · cases h

/-- C107: on a volume whose shadow copies are on it, a shadow copy is not found exactly when its stack position is not listed. -/
theorem C107_not_found (volume : Bytes) (offset fuel n : Nat) (o : Opened) (hf : 0 < fuel)
    (h : openVolume ⟨volume, offset, none, none⟩ fuel = some (.ok o)) (hu : o.useSecondVolume = false)
    (hb : ∀ b ∈ o.controlBlocks, badSlot b = none) :
    select ⟨volume, offset, none, none⟩ fuel (.position n) = some (.error .ShadowCopyNotFoundException) ↔
      ¬ ∃ raw ∈ o.controlBlocks.flatMap shadowSlots, leNat (slice raw 32 40) = n := by
  have hl := opened_length h rfl
  have he := (listed_iff _ hl hb []).1
  have hst : o.storageBlocks = o.controlBlocks := by
    unfold openVolume at h
    dsimp only at h
    split at h
    · cases h
    split at h
    · cases h
    split at h
    · cases h
    · cases h
    · cases h; rfl
  unfold select
  rw [h]
  dsimp only
  rw [if_neg (by rw [hu]; simp)]
  obtain ⟨fuel, rfl⟩ : ∃ k, fuel = k + 1 := ⟨fuel - 1, by omega⟩
  rw [selectStores]
  obtain ⟨g, g1, g2⟩ := guidOfPosition_found n o.controlBlocks none he
  rw [show guidOfKey o (.position n) = guidOfPosition n o.controlBlocks none from rfl, g1]
  dsimp only
  constructor
  · intro hs hex
    obtain ⟨raw, hr, hp⟩ := hex
    have hsome := g2 (.inr ⟨raw, (listed_iff _ hl hb raw).2.mpr hr, hp⟩)
    cases g with
    | none => cases hsome
    | some g =>
      rcases guidOfPosition_mem n _ none g he g1 with hx | ⟨raw', r1, r2, r3⟩
      · cases hx
      have hmem : raw' ∈ matching2 (allItems o.controlBlocks).items (some g) :=
        List.mem_filterMap.mpr ⟨.store raw', r1, by dsimp only; rw [if_pos (by rw [r3])]⟩
      cases hp : pickItems o (some g) with
      | error e =>
        rw [hp] at hs
        injection hs with hs
        injection hs with hs
        subst hs
        unfold pickItems at hp
        rw [hst, he] at hp
        dsimp only at hp
        split at hp
        · cases hp
        · split at hp
          · rename_i h2 _
            rw [h2] at hmem
            cases hmem
          · cases hp
          · cases hp
      | ok c =>
        rw [hp] at hs
        obtain ⟨c2, c3⟩ := c
        dsimp only at hs
        cases hr : readStore ⟨volume, offset, none, none⟩ c2 c3 (fuel + 1) with
        | none => rw [hr] at hs; cases hs
        | some x =>
          rw [hr] at hs
          cases x with
          | error e =>
            injection hs with hs
            injection hs with hs
            exact readStore_error hr hs
          | ok s =>
            dsimp only at hs
            split at hs
            · cases hs
            · cases hs
            · split at hs
              · cases hs
              · rename_i hne
                injection hs with hs
                injection hs with hs
                exact hne hs
  · intro hno
    have : g = none := by
      cases g with
      | none => rfl
      | some g =>
        rcases guidOfPosition_mem n _ none g he g1 with hx | ⟨raw', r1, r2, r3⟩
        · cases hx
        · exact absurd ⟨raw', (listed_iff _ hl hb raw').2.mp r1, r2⟩ hno
    subst this
    have hp : pickItems o none = .error .ShadowCopyNotFoundException := by
      have n2 : ∀ l, matching2 l none = [] := by
        intro l
        unfold matching2
        apply List.filterMap_eq_nil_iff.mpr
        intro x _
        cases x <;> simp
      have n3 : ∀ l, matching3 l none = [] := by
        intro l
        unfold matching3
        apply List.filterMap_eq_nil_iff.mpr
        intro x _
        cases x <;> simp
      unfold pickItems
      rw [hst, he]
      dsimp only
      rw [n2, n3]
      rfl
    rw [hp]

/-- C107: the shadow copy that is selected by its stack position is one of those listed with this position, and it has the size that
is recorded there. -/
theorem C107_selected (volume : Bytes) (offset fuel n : Nat) (o : Opened) (s : Store) (newer : List Store)
    (h : openVolume ⟨volume, offset, none, none⟩ fuel = some (.ok o)) (hb : ∀ b ∈ o.controlBlocks, badSlot b = none)
    (hs : select ⟨volume, offset, none, none⟩ fuel (.position n) = some (.ok (s :: newer))) :
    ∃ raw ∈ o.controlBlocks.flatMap shadowSlots, leNat (slice raw 32 40) = n ∧ s.currentSize = leNat (slice raw 8 16) := by
  have hl := opened_length h rfl
  unfold select at hs
  rw [h] at hs
  dsimp only at hs
  split at hs
  · cases hs
  cases fuel with
  | zero => cases hs
  | succ fuel =>
    rw [selectStores] at hs
    split at hs
    · cases hs
    rename_i g hg
    split at hs
    · cases hs
    rename_i c2 c3 hp
    obtain ⟨p1, p2⟩ := pick_position o n g c2 c3 hg hp
    refine ⟨c2, ?_, p1, ?_⟩
    · unfold storeItems at p2
      obtain ⟨it, hi, hv⟩ := List.mem_filterMap.1 p2
      cases it with
      | location raw => cases hv
      | store raw => cases hv; exact (listed_iff _ hl hb c2).2.mp hi
    · have key : ∀ s', readStore ⟨volume, offset, none, none⟩ c2 c3 (fuel + 1) = some (.ok s') → s'.currentSize = volumeSize c2 := by
        intro s' hr
        unfold readStore at hr
        split at hr
        · cases hr
        · cases hr
        split at hr
        · cases hr
        · cases hr
        split at hr
        · cases hr
        · cases hr
        split at hr
        · cases hr
        split at hr
        · cases hr
        · cases hr
        · cases hr; rfl
      split at hs
      · cases hs
      · cases hs
      rename_i s' hr
      split at hs
      · cases hs
      · cases hs; exact key _ hr
      · split at hs
        · cases hs; exact key _ hr
        · cases hs

/-! ### Concrete cases -/

/-- The sample volume has one control block. -/
theorem sample_open (fuel : Nat) : openVolume SampleShadow.image (fuel + 2) =
    some (.ok ⟨[SampleShadow.control 256 ++ zeros 16000], [SampleShadow.control 256 ++ zeros 16000], false⟩) := by
  refine SampleShadow.open_single SampleShadow.file SampleShadow.start (fuel + 2) _ SampleShadow.read_start (by decide +kernel) (by decide +kernel)
    (by decide +kernel) ?_
  refine SampleShadow.chain_single SampleShadow.file .control (fun b => .ok b) (fuel + 1) 0x4000 _ _ (by decide) SampleShadow.read_control ?_ ?_ ?_ rfl
  · exact SampleShadow.block_head .control (SampleShadow.control 256) (zeros 16000) SampleShadow.control_block_length
      (by rw [SampleShadow.control_length]; omega) (by decide +kernel) (by decide +kernel) (by decide +kernel)
  · exact (SampleShadow.u64_head _ _ _ (by rw [SampleShadow.control_length]; omega)).trans (by decide +kernel)
  · exact (SampleShadow.u64_head _ _ _ (by rw [SampleShadow.control_length]; omega)).trans (by decide +kernel)

theorem sample_slots : badSlot (SampleShadow.control 256 ++ zeros 16000) = none ∧
    shadowSlots (SampleShadow.control 256 ++ zeros 16000) = [SampleShadow.item2] := by
  have e := SampleShadow.items_control (zeros 16000) (by decide +kernel)
  rw [items_eq _ SampleShadow.control_block_length] at e
  injection e with e1 e2
  refine ⟨by simpa using e2, ?_⟩
  have key : ∀ l : List Bytes, l.filter (fun r => decide (slotType r = 2)) =
      (l.filterMap itemOf).filterMap fun | .store r => some r | .location _ => none := by
    intro l
    induction l with
    | nil => rfl
    | cons r l ih =>
      rw [List.filter_cons, List.filterMap_cons]
      unfold itemOf at ih ⊢
      by_cases h2 : slotType r = 2
      · simp [h2, ih]
      · by_cases h3 : slotType r = 3
        · simp [h3, ih]
        · simp [h2, h3, ih]
  unfold shadowSlots
  rw [key, e1]
  rfl

/-- A case for C107: one shadow copy is listed. -/
example : ∃ line, listShadows SampleShadow.file 0 2 = some ⟨[Str.ofString "Shadow copies are enabled", line], none⟩ ∧
    IsLine SampleShadow.item2 line := by
  obtain ⟨lines, h1, h2, h3⟩ := C107_list SampleShadow.file 0 2 _ (sample_open 0) (fun b hb => by
    rw [List.mem_singleton.mp hb]; exact sample_slots.1)
  have e : ([SampleShadow.control 256 ++ zeros 16000].flatMap shadowSlots) = [SampleShadow.item2] := by
    rw [List.flatMap_cons, List.flatMap_nil, sample_slots.2]; rfl
  rw [e] at h2 h3
  match lines, h2 with
  | [line], _ => exact ⟨line, h1, h3 0 _ _ rfl rfl⟩

/-- A case for C107: the position 5 is not listed. -/
example : select SampleShadow.image 2 (.position 5) = some (.error .ShadowCopyNotFoundException) := by
  refine (C107_not_found SampleShadow.file 0 2 5 _ (by decide) (sample_open 0) rfl (fun b hb => by
    rw [List.mem_singleton.mp hb]; exact sample_slots.1)).mpr ?_
  rw [List.flatMap_cons, List.flatMap_nil, sample_slots.2]
  rintro ⟨raw, hr, hn⟩
  simp only [List.append_nil, List.mem_singleton] at hr
  subst hr
  exact absurd hn (by decide +kernel)

/-- A case for C107: the position 1 is selected. -/
example : ∃ raw ∈ [SampleShadow.control 256 ++ zeros 16000].flatMap shadowSlots, leNat (slice raw 32 40) = 1 ∧ 256 = leNat (slice raw 8 16) :=
  C107_selected SampleShadow.file 0 2 1 _ SampleShadow.store [] (sample_open 0) (fun b hb => by
    rw [List.mem_singleton.mp hb]; exact sample_slots.1) (SampleShadow.select_image 0)

/-- A case for C107: no bytes at all, and no volume of NTFS or ReFS. -/
example : listShadows [] 0 2 = some ⟨[Str.ofString "Shadow copies are disabled"], none⟩ :=
  (C107_disabled [] 0 2 (by decide)).mpr (.inl (by decide))
example : listShadows (zeros 8192) 0 2 = some ⟨[Str.ofString "Not a valid volume"], none⟩ :=
  (C107_invalid (zeros 8192) 0 2 (by decide)).mpr ⟨by decide +kernel, by decide +kernel⟩

theorem sample_mount (altFill : Bool) : mount SampleShadow.file 0 none altFill 1 2 = some (.ok ⟨SampleShadow.image, [SampleShadow.store], altFill⟩) := by
  unfold mount
  dsimp only
  rw [show (⟨SampleShadow.file, 0, none, none⟩ : Image) = SampleShadow.image from rfl, SampleShadow.select_image 0]
  cases altFill <;> rfl

/-- A case for C105: 200 bytes of the mounted image, after an attempt to write to it. -/
example : ∃ d, replyAfter ⟨SampleShadow.image, [SampleShadow.store], false⟩ [.open 2 0, .write 2 0 [1, 2, 3]] (.read 2 3 200) = some (.ok (.data d)) ∧
    d.length = 200 ∧ ∀ i, i < 200 → d[i]? = byteAt SampleShadow.image [SampleShadow.store] (3 + i) :=
  C105_read SampleShadow.file 0 none 1 2 _ (sample_mount false) _ 3 200 (by rw [sample_size]; omega)
    ⟨(sample_readable 203 (by omega)).bytes, (sample_readable 203 (by omega)).offsets, (sample_readable 203 (by omega)).forwarders⟩

/-- A case for C105: the attempt itself. -/
example : replyAfter ⟨SampleShadow.image, [SampleShadow.store], false⟩ [.open 2 0] (.write 2 0 [1, 2, 3]) = some (.error .EROFS) :=
  C105_read_only _ _ _ trivial

/-- A case for C106: the same bytes with the alternate fill, which a stored sector does not show. -/
example : ∃ d, replyAfter ⟨SampleShadow.image, [SampleShadow.store], true⟩ [] (.read 2 3 200) = some (.ok (.data d)) ∧
    d.length = 200 ∧ ∀ i, i < 200 → d[i]? = fillByte SampleShadow.image [SampleShadow.store] (3 + i) :=
  C106_fill SampleShadow.file 0 1 2 _ (sample_mount true) [] 3 200 (by rw [sample_size]; omega)
    ⟨(sample_readable 203 (by omega)).bytes, (sample_readable 203 (by omega)).offsets, (sample_readable 203 (by omega)).forwarders⟩
example : fillByte SampleShadow.image [SampleShadow.store] 3 = byteAt SampleShadow.image [SampleShadow.store] 3 :=
  C106_same _ _ 3 ⟨0xC000, by decide, .inr (sample_sector 0)⟩

/-- A case for C106 of a sector that is read from its own place: no store has an entry for it. -/
example : fillByte ⟨zeros 512, 0, none, none⟩ [⟨512, [], [], [], [], false⟩] 3 = some 0x47 := by decide +kernel

end Verif.Props.Mount
