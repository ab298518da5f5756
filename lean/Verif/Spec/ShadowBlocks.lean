/-
The blocks of the shadow copy metadata, by the field: how each is laid out in bytes.
-/
import Verif.Basic.Bytes
namespace Verif.Spec.ShadowBlocks

/-- The GUID at the beginning of each block: 3808876b-c176-4e48-b7ae-04046e6cc752. -/
def mark : Bytes := [0x6B, 0x87, 0x08, 0x38, 0x76, 0xC1, 0x48, 0x4E, 0xB7, 0xAE, 0x04, 0x04, 0x6E, 0x6C, 0xC7, 0x52]

/-- The first 8192 bytes of a volume with a start block: the beginning of the boot area with the name of the file system, the rest before the start block, and the
fields of the start block. -/
structure Start where
  jump : Bytes
  name : Bytes
  area : Bytes
  version : Nat
  controlOffset : Nat
  maximum : Nat
  volume : Bytes
  storage : Bytes
  application : Nat
  freePercentage : Nat
  hotPercentage : Nat
  hotDays : Nat
  protection : Nat
  rest : Bytes

def Start.fields (s : Start) : List Bytes :=
  [s.jump, s.name, s.area, mark, natLE 4 s.version, natLE 4 1, natLE 8 7680, natLE 8 7680, natLE 8 0, natLE 8 s.controlOffset, natLE 8 s.maximum, s.volume,
   s.storage, natLE 8 s.application, natLE 8 s.freePercentage, natLE 8 s.hotPercentage, natLE 4 s.hotDays, natLE 4 s.protection, s.rest]

def Start.bytes (s : Start) : Bytes := s.fields.flatten

structure Start.Fits (s : Start) : Prop where
  jump : s.jump.length = 3
  name : s.name = [0x4E, 0x54, 0x46, 0x53] ∨ s.name = [0x52, 0x65, 0x46, 0x53]
  area : s.area.length = 7673
  version : s.version < 2 ^ 32
  controlOffset : s.controlOffset < 2 ^ 64
  maximum : s.maximum < 2 ^ 64
  volume : s.volume.length = 16
  storage : s.storage.length = 16
  application : s.application < 2 ^ 64
  freePercentage : s.freePercentage < 2 ^ 64
  hotPercentage : s.hotPercentage < 2 ^ 64
  hotDays : s.hotDays < 2 ^ 32
  protection : s.protection < 2 ^ 32
  rest : s.rest.length = 384

/-- The header of a block in a chain: its type, its place in the file that it belongs to, its place on the volume, that of the next block. -/
structure Header where
  version : Nat
  type : Nat
  relative : Nat
  place : Nat
  next : Nat
  rest : Bytes

def Header.fields (h : Header) : List Bytes := [mark, natLE 4 h.version, natLE 4 h.type, natLE 8 h.relative, natLE 8 h.place, natLE 8 h.next, h.rest]

def Header.bytes (h : Header) : Bytes := h.fields.flatten

structure Header.Fits (h : Header) : Prop where
  version : h.version < 2 ^ 32
  type : h.type < 2 ^ 32
  relative : h.relative < 2 ^ 64
  place : h.place < 2 ^ 64
  next : h.next < 2 ^ 64
  rest : h.rest.length = 80

/-- A slot that describes a shadow copy. -/
structure Described where
  priority : Nat
  unused : Bytes
  size : Nat
  guid : Bytes
  position : Nat
  flags : Nat
  moment : Nat
  unknown : Nat
  rest : Bytes

def Described.fields (s : Described) : List Bytes :=
  [natLE 4 2, natLE 1 s.priority, s.unused, natLE 8 s.size, s.guid, natLE 8 s.position, natLE 8 s.flags, natLE 8 s.moment, natLE 2 s.unknown, s.rest]

def Described.bytes (s : Described) : Bytes := s.fields.flatten

structure Described.Fits (s : Described) : Prop where
  priority : s.priority < 2 ^ 8
  unused : s.unused.length = 3
  size : s.size < 2 ^ 64
  guid : s.guid.length = 16
  position : s.position < 2 ^ 64
  flags : s.flags < 2 ^ 64
  moment : s.moment < 2 ^ 64
  unknown : s.unknown < 2 ^ 16
  rest : s.rest.length = 70

/-- A slot that says where the blocks of a shadow copy are. -/
structure Located where
  unused : Bytes
  table : Nat
  guid : Bytes
  application : Nat
  description : Nat
  bitmap : Nat
  reference : Nat
  allocated : Nat
  previousBitmap : Nat
  unknown : Nat
  rest : Bytes

def Located.fields (s : Located) : List Bytes :=
  [natLE 4 3, s.unused, natLE 8 s.table, s.guid, natLE 8 s.application, natLE 8 s.description, natLE 8 s.bitmap, natLE 8 s.reference, natLE 8 s.allocated,
   natLE 8 s.previousBitmap, natLE 4 s.unknown, s.rest]

def Located.bytes (s : Located) : Bytes := s.fields.flatten

structure Located.Fits (s : Located) : Prop where
  unused : s.unused.length = 4
  table : s.table < 2 ^ 64
  guid : s.guid.length = 16
  application : s.application < 2 ^ 64
  description : s.description < 2 ^ 64
  bitmap : s.bitmap < 2 ^ 64
  reference : s.reference < 2 ^ 64
  allocated : s.allocated < 2 ^ 64
  previousBitmap : s.previousBitmap < 2 ^ 64
  unknown : s.unknown < 2 ^ 32
  rest : s.rest.length = 44

/-- A slot of a control block. -/
inductive Slot where
  | free (rest : Bytes)
  | described (s : Described)
  | located (s : Located)

def Slot.bytes : Slot → Bytes
  | .free rest => natLE 4 1 ++ rest
  | .described s => s.bytes
  | .located s => s.bytes

/-- A shadow copy is never of size zero. -/
def Slot.Fits : Slot → Prop
  | .free rest => rest.length = 124
  | .described s => s.Fits ∧ 0 < s.size
  | .located s => s.Fits

/-- A block is full with its slots, or a slot of zeros marks the end of the slots. -/
def control (h : Header) (slots : List Slot) (tail : Bytes) : Bytes := h.bytes ++ (slots.map Slot.bytes).flatten ++ tail

def Ends (tail : Bytes) : Prop := tail = [] ∨ tail.take 4 = zeros 4

/-- An item of a location description: a run of the file with the blocks. -/
structure Run where
  place : Nat
  offset : Nat
  size : Nat

def Run.bytes (r : Run) : Bytes := natLE 8 r.place ++ (natLE 8 r.offset ++ natLE 8 r.size)

def Run.Fits (r : Run) : Prop := 0 < r.place ∧ r.place < 2 ^ 64 ∧ r.offset < 2 ^ 64 ∧ 0 < r.size ∧ r.size < 2 ^ 64

end Verif.Spec.ShadowBlocks
