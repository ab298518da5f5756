/-
Shadow copies independently of the code (used to state C41-C45).
-/
import Verif.Model.ShadowCopy.Parser
namespace Verif.Spec.Shadow
open Verif.ShadowCopy (Entry Store Source Image)

/-! ### The three kinds of entries of a differential area -/

/-- Bit 0 of the flags: the block is found at another offset in the next store. -/
def IsForwarder (e : Entry) : Prop := e.flags.testBit 0 = true
/-- Bit 1 of the flags: only some sectors of the block are stored. -/
def IsOverlay (e : Entry) : Prop := e.flags.testBit 1 = true
instance (e : Entry) : Decidable (IsForwarder e) := by unfold IsForwarder; infer_instance
instance (e : Entry) : Decidable (IsOverlay e) := by unfold IsOverlay; infer_instance
/-- A forwarder whose target is its own block. -/
def IsSelfForwarder (e : Entry) : Prop := IsForwarder e ∧ e.original = e.inStore
instance (e : Entry) : Decidable (IsSelfForwarder e) := by unfold IsSelfForwarder; infer_instance

/-! ### The table of a differential area block -/

/-- The 32-byte slots of a block, after its header of 128 bytes. -/
def slots (block : Bytes) : List Bytes := (List.range 508).map fun i => slice block (0x80 + 32 * i) (0x80 + 32 * i + 32)

/-- The numbers in a slot: the offset in the original volume, the offset in the next store, the offset of the
copy, the flags and the map of the sectors. -/
def slotEntry (raw : Bytes) : Entry :=
  ⟨leNat (slice raw 0 8), leNat (slice raw 8 16), leNat (slice raw 16 24), leNat (slice raw 24 28), leNat (slice raw 28 32)⟩

/-- A slot with offsets of blocks and with known flags, which is not both a forwarder and an overlay. -/
def ValidSlot (raw : Bytes) : Prop :=
  0x4000 ∣ (slotEntry raw).original ∧ 0x4000 ∣ (slotEntry raw).dataBlock ∧ (slotEntry raw).flags < 256 ∧
  ¬ (IsForwarder (slotEntry raw) ∧ IsOverlay (slotEntry raw))
instance (raw : Bytes) : Decidable (ValidSlot raw) := by unfold ValidSlot; infer_instance

/-- The slot after the last entry. -/
def EndSlot (raw : Bytes) : Prop := (slotEntry raw).dataBlock = 0 ∧ (slotEntry raw).flags = 0
instance (raw : Bytes) : Decidable (EndSlot raw) := by unfold EndSlot; infer_instance

/-- The slots before the end or before an invalid slot. -/
def usedSlots (block : Bytes) : List Bytes := (slots block).takeWhile fun r => decide (ValidSlot r ∧ ¬ EndSlot r)

/-! ### Loading a differential area -/

/-- Before the entry number `i`, the block `o` is forwarded to `t`: an earlier forwarder (which ended up at
the offset `t`) has `o` as its target, and nothing between it and the entry `i` used that up or replaced it.
`rec` are the entries as recorded, `fin` the same entries with their final offsets. -/
def Pending (rec fin : List Entry) (i o t : Nat) : Prop :=
  ∃ j f, j < i ∧ fin[j]? = some f ∧ IsForwarder f ∧ f.inStore = o ∧ f.original = t ∧ t ≠ o ∧
    ∀ k, j < k → k < i → ∀ e f, rec[k]? = some e → fin[k]? = some f →
      ¬ (¬ IsOverlay e ∧ e.original = o) ∧ ¬ (IsForwarder f ∧ f.inStore = o ∧ f.original ≠ o)

/-- `fin` are the entries `rec` with their final offsets: an entry that is not an overlay and is recorded
against a block that is forwarded at this time gets the offset of the forwarder, the others keep theirs. -/
structure Retargeted (rec fin : List Entry) : Prop where
  length : fin.length = rec.length
  others : ∀ (i : Nat) (e f : Entry), rec[i]? = some e → fin[i]? = some f →
    f.inStore = e.inStore ∧ f.dataBlock = e.dataBlock ∧ f.flags = e.flags ∧ f.bitmap = e.bitmap
  moved : ∀ (i : Nat) (e f : Entry) (t : Nat), rec[i]? = some e → fin[i]? = some f → ¬ IsOverlay e → Pending rec fin i e.original t → f.original = t
  kept : ∀ (i : Nat) (e f : Entry), rec[i]? = some e → fin[i]? = some f →
    (IsOverlay e ∨ ∀ t, ¬ Pending rec fin i e.original t) → f.original = e.original

/-- The entries that remain: a regular entry is dropped when a later self-forwarder has the same offset. -/
def survivors : List Entry → List Entry
  | [] => []
  | f :: rest =>
    if ¬ IsForwarder f ∧ ¬ IsOverlay f ∧ ∃ g ∈ rest, IsSelfForwarder g ∧ g.original = f.original then survivors rest
    else f :: survivors rest

/-! ### Where a sector of a shadow copy is -/

/-- The block at an offset was unused when the shadow copy was made: its bit is set in the bitmap, and in
the previous bitmap as far as that one goes. -/
def Unused (s : Store) (o : Nat) : Prop :=
  (leNat s.bitmap).testBit (o / 0x4000) = true ∧
  (o / 0x4000 < 8 * s.previousBitmap.length → (leNat s.previousBitmap).testBit (o / 0x4000) = true)
instance (s : Store) (o : Nat) : Decidable (Unused s o) := by unfold Unused; infer_instance

/-- The last recorded entry of a store for the block `o` that satisfies `p`. -/
def lastEntry (s : Store) (o : Nat) (p : Entry → Prop) [DecidablePred p] : Option Entry :=
  (s.diffArea.filter fun e => decide (e.original = o ∧ p e)).getLast?

/-- A forwarder to another block. -/
def Forwards (e : Entry) : Prop := IsForwarder e ∧ e.original ≠ e.inStore
instance (e : Entry) : Decidable (Forwards e) := by unfold Forwards; infer_instance
/-- A copy of a whole block. -/
def IsCopy (e : Entry) : Prop := ¬ Forwards e ∧ ¬ IsOverlay e
instance (e : Entry) : Decidable (IsCopy e) := by unfold IsCopy; infer_instance
/-- An overlay with the sector `i`. -/
def Overlays (i : Nat) (e : Entry) : Prop := IsOverlay e ∧ e.bitmap.testBit i = true
instance (i : Nat) (e : Entry) : Decidable (Overlays i e) := by unfold Overlays; infer_instance

/-- A newer store has something else than overlays for the block. -/
def CopiedLater (newer : List Store) (o : Nat) : Prop := ∃ s ∈ newer, ∃ e ∈ s.diffArea, e.original = o ∧ ¬ IsOverlay e
instance (newer : List Store) (o : Nat) : Decidable (CopiedLater newer o) := by unfold CopiedLater; infer_instance

/-- The block is zeros because it is the unused target of a forwarder. -/
def NullTarget (s : Store) (newer : List Store) (o : Nat) (forwarded : Bool) : Prop :=
  s.returnNull = true ∧ newer ≠ [] ∧ ¬ CopiedLater newer o ∧ forwarded = false ∧
  (∃ e ∈ s.diffArea, IsForwarder e ∧ e.inStore = o ∧ Unused s o) ∧ lastEntry s o IsCopy = none
instance (s : Store) (newer : List Store) (o : Nat) (f : Bool) : Decidable (NullTarget s newer o f) := by
  unfold NullTarget; infer_instance

/-- The source of the sector `i` of the block `o` in the store `s`.  `next` says where the sector of a block
is found in the newer stores or, if there are none, in the volume.  `selected` says that `s` is the selected
shadow copy (the overlays of newer stores are not used), and `forwarded` that a forwarder led to the block. -/
def sectorOf (s : Store) (newer : List Store) (next : Nat → Bool → Source) (o : Nat) (selected forwarded : Bool) (i : Nat) : Source :=
  match lastEntry s o IsCopy with
  | some copy =>
    match lastEntry s o (Overlays i) with
    | some overlay => if selected then .store (overlay.dataBlock + i * 512) else .store (copy.dataBlock + i * 512)
    | none => .store (copy.dataBlock + i * 512)
  | none =>
    if selected = true ∧ (lastEntry s o IsOverlay).isSome then
      -- overlays of something that is not in this store
      if NullTarget s newer o forwarded then .zero
      else
        match lastEntry s o (Overlays i) with
        | some overlay => .store (overlay.dataBlock + i * 512)
        | none =>
          match lastEntry s o Forwards with
          | some forwarder => next forwarder.inStore true
          | none =>
            if CopiedLater newer o then next o false
            else if Unused s o ∧ s.returnNull = true then .zero else .volume (o + i * 512)
    else
      match lastEntry s o Forwards with
      | some forwarder => next forwarder.inStore true
      | none =>
        if NullTarget s newer o forwarded then .zero
        else if Unused s o ∧ lastEntry s o IsOverlay = none ∧ newer ≠ [] ∧ ¬ CopiedLater newer o ∧ s.returnNull = true then .zero
        else next o false

/-- The source of the sector `i` of the block `o` in the first of the stores (the later ones are newer); the
newest store refers to the volume, or to zeros for an unused block. -/
def sector : List Store → Nat → Bool → Bool → Nat → Source
  | [], o, _, _, i => .volume (o + i * 512)
  | s :: newer, o, selected, forwarded, i =>
    sectorOf s newer (fun o f =>
      match newer with
      | [] => if Unused s o ∧ s.returnNull = true ∧ f = false then .zero else .volume (o + i * 512)
      | _ :: _ => sector newer o false f i) o selected forwarded i

/-- What loading gives: sorted entries that are not both forwarders and overlays, and the null targets of the
entries. -/
structure Loaded (s : Store) : Prop where
  sorted : s.diffArea.Pairwise (fun a b => a.original ≤ b.original)
  kinds : ∀ e ∈ s.diffArea, ¬ (IsForwarder e ∧ IsOverlay e)
  nulls : ∀ o, o ∈ s.nullTargets ↔ ∃ e ∈ s.diffArea, IsForwarder e ∧ e.inStore = o ∧ Unused s o

/-- The offset of a block inside the volume. -/
def BlockOffset (volumeSize : Option Nat) (o : Nat) : Prop := 0x4000 ∣ o ∧ ∀ n, volumeSize = some n → o < n

/-- All the forwarders of the stores lead to blocks inside the volume. -/
def ForwardersInside (volumeSize : Option Nat) (stores : List Store) : Prop :=
  ∀ s ∈ stores, ∀ e ∈ s.diffArea, Forwards e → BlockOffset volumeSize e.inStore

/-! ### The bytes of a shadow copy -/

/-- The byte number `j` of a sector. -/
def sourceByte (img : Image) : Source → Nat → Option UInt8
  | .zero, _ => some 0
  | .volume o, j => img.volume[img.volumeOffset + o + j]?
  | .store o, j => img.store.1[img.store.2 + o + j]?

/-- The byte of a shadow copy at the position `p`, if the image has it: it is in the sector
`p % 0x4000 / 512` of the block that starts at `p / 0x4000 * 0x4000`. -/
def byteAt (img : Image) (stores : List Store) (p : Nat) : Option UInt8 :=
  sourceByte img (sector stores (p / 0x4000 * 0x4000) true false (p % 0x4000 / 512)) (p % 512)

/-- The offset of a sector is one that a file object of Python accepts. -/
def Seekable (img : Image) : Source → Prop
  | .zero => True
  | .volume o => img.volumeOffset + o < 2 ^ 63
  | .store o => img.store.2 + o < 2 ^ 63

/-- The size of a volume, up to a whole number of blocks. -/
def roundUp (n : Nat) : Nat := (n + 0x3FFF) / 0x4000 * 0x4000

/-- The size of the selected shadow copy: the recorded one, but at most the size of the volume if that was
given. -/
def shadowSize (img : Image) (stores : List Store) : Nat :=
  match stores, img.volumeSize with
  | [], _ => 0
  | s :: _, none => s.currentSize
  | s :: _, some n => min s.currentSize n

/-- The image has all the bytes of the shadow copy that a read of the positions from `a` to `b` needs, and the
metadata lead to nothing that makes it fail. -/
structure Readable (img : Image) (stores : List Store) (a b : Nat) : Prop where
  bytes : ∀ p, a / 0x4000 * 0x4000 ≤ p → p / 512 * 512 < b → (byteAt img stores p).isSome = true
  offsets : ∀ p, a / 0x4000 * 0x4000 ≤ p → p / 0x4000 * 0x4000 < b →
    Seekable img (sector stores (p / 0x4000 * 0x4000) true false (p % 0x4000 / 512))
  forwarders : ForwardersInside img.volumeSize stores

/-! ### Chains of blocks -/

/-- The GUID {3808876b-c176-4e48-b7ae-04046e6cc752} at the start of each block. -/
def blockGuid : Bytes := [0x6B, 0x87, 0x08, 0x38, 0x76, 0xC1, 0x48, 0x4E, 0xB7, 0xAE, 0x04, 0x04, 0x6E, 0x6C, 0xC7, 0x52]

/-- At the offset `o` of the volume there is a block of the given type that records this offset as its own and
`next` as that of the next block. -/
structure BlockAt (vol : Bytes × Nat) (type o next : Nat) : Prop where
  seekable : vol.2 + o < 2 ^ 63
  length : vol.2 + o + 0x4000 ≤ vol.1.length
  guid : slice vol.1 (vol.2 + o) (vol.2 + o + 16) = blockGuid
  type : leNat (slice vol.1 (vol.2 + o + 20) (vol.2 + o + 24)) = type
  own : leNat (slice vol.1 (vol.2 + o + 32) (vol.2 + o + 40)) = o
  next : leNat (slice vol.1 (vol.2 + o + 40) (vol.2 + o + 48)) = next

/-- The chain of blocks that starts at the offset `o` never ends: there is always another block. -/
def Endless (vol : Bytes × Nat) (type o : Nat) : Prop :=
  ∃ s : Nat → Nat, s 0 = o ∧ ∀ i, s i ≠ 0 ∧ BlockAt vol type (s i) (s (i + 1))

/-- No chain of blocks on the volumes of an image is endless (2, 3, 5 and 6 are the types of the blocks that are
chained). -/
def NoEndlessChain (img : Image) : Prop :=
  ∀ vol, vol = (img.volume, img.volumeOffset) ∨ vol = img.store → ∀ type, type ∈ [2, 3, 5, 6] → ∀ o, ¬ Endless vol type o

end Verif.Spec.Shadow
