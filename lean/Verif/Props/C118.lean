/-
Property C118: the fields of the records of a change journal and of the structures of a move table are the ones that were stored
(dfir_ntfs/USN.py:105-359, dfir_ntfs/MoveTable.py:57-315).
-/
import Verif.Model.USNFields
import Verif.Model.MoveTableFields
import Verif.Spec.JournalFields
import Verif.Proof.Chunks
import Verif.Proof.Utf16
namespace Verif.Props.JournalFields
open Verif Verif.Spec.JournalFields Verif.Proof.Chunks Verif.Spec Verif.Proof.Utf16

private theorem unpack_of {b : Bytes} {n v : Nat} (h : b = natLE n v) (hv : v < 256 ^ n) : unpackLE n b = .ok v := by
  subst h
  unfold unpackLE
  rw [if_pos (natLE_length n v), leNat_natLE_of_lt hv]

private theorem le_of {b : Bytes} {n v : Nat} (h : b = natLE n v) (hv : v < 256 ^ n) : leNat b = v := by
  subst h; exact leNat_natLE_of_lt hv

private theorem int_of {b : Bytes} {v : Int} (h : b = intLE 8 v) (hv : -2 ^ 63 ≤ v ∧ v < 2 ^ 63) : leInt b = v := by
  subst h; exact leInt_intLE (by omega) (by omega)

/-! ### The change journal -/

open Verif.USN

private theorem natLE_split (n m v : Nat) : natLE (n + m) v = natLE n v ++ natLE m (v / 256 ^ n) := by
  induction n generalizing v with
  | zero => simp [natLE]
  | succ n ih =>
    rw [show n + 1 + m = (n + m) + 1 by omega, natLE, natLE, ih, List.cons_append, Nat.div_div_eq_div_mul, Nat.pow_succ, Nat.mul_comm 256]

private theorem reference_of {raw : Bytes} {i v : Nat} (h : slice raw i (i + 16) = natLE 16 v) (hv : v < 2 ^ 128) : reference128 raw i = .ok v := by
  have hl : (slice raw i (i + 16)).length = 16 := by rw [h, natLE_length]
  rw [natLE_split 8 8] at h
  have h1 : slice raw i (i + 8) = natLE 8 v := by
    have : slice (slice raw i (i + 16)) 0 8 = slice raw i (i + 8) := by
      unfold slice; simp [List.take_take]
    rw [← this, h, slice_append_left _ _ _ _ (by rw [natLE_length]; omega), slice_all (by rw [natLE_length]; omega)]
  have h2 : slice raw (i + 8) (i + 16) = natLE 8 (v / 256 ^ 8) := by
    have : slice (slice raw i (i + 16)) 8 16 = slice raw (i + 8) (i + 16) := by
      unfold slice
      rw [List.drop_take, List.drop_drop, show i + 16 - i - 8 = 8 by omega, show i + 16 - (i + 8) = 8 by omega, List.take_take]
      rfl
    rw [← this, h, slice_append_right _ _ _ _ (by rw [natLE_length]; omega), natLE_length, slice_all (by rw [natLE_length]; omega)]
  unfold reference128 unpackLE
  rw [h1, h2, if_pos (natLE_length _ _), if_pos (natLE_length _ _)]
  dsimp only
  rw [leNat_natLE, leNat_natLE, ← Nat.shiftLeft_add_eq_or_of_lt (by omega), Nat.shiftLeft_eq]
  congr 1
  omega

private theorem change_length (c : Change) : c.bytes.length = c.length := by
  unfold Change.bytes Change.fields Change.length Change.refSize Change.nameOffset
  cases c.wide <;> simp [natLE_length] <;> omega

private theorem slice_prefix (a b : Bytes) (i j : Nat) (h : j ≤ a.length) : slice (a ++ b) i j = slice a i j := slice_append_left _ _ _ _ h

/-- C118: a record of version 2 or 3 is accepted, alone or with something after it, and all its fields and its name are the stored ones. -/
theorem C118_change (c : Change) (h : c.Fits) (rest : Bytes) :
    ∃ r, getUsnRecord (c.bytes ++ rest) = .ok r ∧ r.raw = c.bytes ∧
      r.length = .ok c.length ∧ r.majorVersion = .ok (if c.wide then 3 else 2) ∧ r.minorVersion = .ok c.minor ∧
      r.fileReference = .ok c.file ∧ r.parentReference = .ok c.parent ∧ r.usn = .ok c.usn ∧ r.timestamp = .ok (Attributes.decodeFiletime c.time) ∧
      r.reason = .ok c.reason ∧ r.sourceInfo = .ok c.source ∧ r.securityId = .ok c.security ∧ r.fileAttributes = .ok c.attributes ∧
      r.fileName = .ok c.name := by
  have hlen := change_length c
  have hal := h.aligned
  have h64 : c.nameOffset + 2 ≤ c.length := by
    have : c.nameOffset ≤ c.length := by unfold Change.length; omega
    have : c.nameOffset % 8 = 4 := by unfold Change.nameOffset; cases c.wide <;> rfl
    omega
  have hno : 60 ≤ c.nameOffset := by unfold Change.nameOffset; cases c.wide <;> decide
  have s0 : slice c.bytes 0 4 = natLE 4 c.length := slice_chunk _ 0 rfl rfl (by rw [natLE_length])
  have s1 : slice c.bytes 4 6 = natLE 2 (if c.wide then 3 else 2) := slice_chunk _ 1 rfl (by simp [Change.fields, natLE_length]) (by rw [natLE_length])
  have s2 : slice c.bytes 6 8 = natLE 2 c.minor := slice_chunk _ 2 rfl (by simp [Change.fields, natLE_length]) (by rw [natLE_length])
  have v0 := le_of s0 h.length
  have v1 : u16 c.bytes 4 = if c.wide then 3 else 2 := le_of s1 (by cases c.wide <;> decide)
  have hbuf : slice (c.bytes ++ rest) 0 c.length = c.bytes := by
    rw [slice_append_left _ _ _ _ (by omega), slice_all (by omega)]
  have hv0 : u32 (c.bytes ++ rest) 0 = c.length := by
    unfold u32; rw [slice_prefix _ _ _ _ (by omega)]; exact v0
  have hv1 : u16 (c.bytes ++ rest) 4 = if c.wide then 3 else 2 := by
    unfold u16; rw [slice_prefix _ _ _ _ (by omega)]; exact v1
  have hr : getUsnRecord (c.bytes ++ rest) = .ok (.v2or3 c.wide c.bytes) := by
    unfold getUsnRecord
    rw [if_neg (by rw [List.length_append]; omega)]
    dsimp only
    rw [hv0, hv1, hbuf, if_neg (by omega)]
    have hw : (if c.wide then 78 else 62) ≤ c.bytes.length := by
      rw [hlen]; revert h64; unfold Change.nameOffset; cases c.wide <;> intro h64 <;> simpa using h64
    have hrec : ∀ w : Bool, w = c.wide → recordV2or3 c.bytes w = .ok (.v2or3 w c.bytes) := by
      intro w hw'
      unfold recordV2or3
      dsimp only
      rw [show u32 c.bytes 0 = c.length from v0, v1, hlen, if_neg (by omega), if_neg (by rintro ⟨h1, h2⟩; rw [← hw', h1] at hw; simp at hw; omega),
        if_neg (by omega), if_neg (by omega), if_neg (by rintro ⟨h1, h2⟩; rw [← hw', h1] at h2; exact h2 rfl),
        if_neg (by rintro ⟨h1, h2⟩; rw [← hw', h1] at h2; exact h2 rfl)]
    cases hcw : c.wide with
    | false => rw [if_pos (by simp)]; exact hrec false hcw.symm
    | true => rw [if_neg (by simp), if_pos (by simp)]; exact hrec true hcw.symm
  refine ⟨_, hr, rfl, unpack_of s0 h.length, unpack_of s1 (by cases c.wide <;> decide), unpack_of s2 h.minor, ?_⟩
  cases hcw : c.wide with
  | false =>
    have f3 : slice c.bytes 8 16 = natLE 8 c.file :=
      slice_chunk _ 3 (by simp [Change.fields, Change.refSize, Change.nameOffset, natLE_length, hcw]) (by simp [Change.fields, Change.refSize, Change.nameOffset, natLE_length, hcw]) (by rw [natLE_length])
    have f4 : slice c.bytes 16 24 = natLE 8 c.parent :=
      slice_chunk _ 4 (by simp [Change.fields, Change.refSize, Change.nameOffset, natLE_length, hcw]) (by simp [Change.fields, Change.refSize, Change.nameOffset, natLE_length, hcw]) (by rw [natLE_length])
    have f5 : slice c.bytes 24 32 = natLE 8 c.usn :=
      slice_chunk _ 5 (by simp [Change.fields, Change.refSize, Change.nameOffset, natLE_length, hcw]) (by simp [Change.fields, Change.refSize, Change.nameOffset, natLE_length, hcw]) (by rw [natLE_length])
    have f6 : slice c.bytes 32 40 = natLE 8 c.time :=
      slice_chunk _ 6 (by simp [Change.fields, Change.refSize, Change.nameOffset, natLE_length, hcw]) (by simp [Change.fields, Change.refSize, Change.nameOffset, natLE_length, hcw]) (by rw [natLE_length])
    have f7 : slice c.bytes 40 44 = natLE 4 c.reason :=
      slice_chunk _ 7 (by simp [Change.fields, Change.refSize, Change.nameOffset, natLE_length, hcw]) (by simp [Change.fields, Change.refSize, Change.nameOffset, natLE_length, hcw]) (by rw [natLE_length])
    have f8 : slice c.bytes 44 48 = natLE 4 c.source :=
      slice_chunk _ 8 (by simp [Change.fields, Change.refSize, Change.nameOffset, natLE_length, hcw]) (by simp [Change.fields, Change.refSize, Change.nameOffset, natLE_length, hcw]) (by rw [natLE_length])
    have f9 : slice c.bytes 48 52 = natLE 4 c.security :=
      slice_chunk _ 9 (by simp [Change.fields, Change.refSize, Change.nameOffset, natLE_length, hcw]) (by simp [Change.fields, Change.refSize, Change.nameOffset, natLE_length, hcw]) (by rw [natLE_length])
    have f10 : slice c.bytes 52 56 = natLE 4 c.attributes :=
      slice_chunk _ 10 (by simp [Change.fields, Change.refSize, Change.nameOffset, natLE_length, hcw]) (by simp [Change.fields, Change.refSize, Change.nameOffset, natLE_length, hcw]) (by rw [natLE_length])
    have f11 : slice c.bytes 56 58 = natLE 2 (Utf16.encode c.name).length :=
      slice_chunk _ 11 (by simp [Change.fields, Change.refSize, Change.nameOffset, natLE_length, hcw]) (by simp [Change.fields, Change.refSize, Change.nameOffset, natLE_length, hcw]) (by rw [natLE_length])
    have f12 : slice c.bytes 58 60 = natLE 2 60 :=
      slice_chunk _ 12 (by simp [Change.fields, Change.refSize, Change.nameOffset, natLE_length, hcw]) (by simp [Change.fields, Change.refSize, Change.nameOffset, natLE_length, hcw]) (by rw [natLE_length])
    have f13 : slice c.bytes 60 (60 + (Utf16.encode c.name).length) = Utf16.encode c.name :=
      slice_chunk _ 13 (by simp [Change.fields, Change.refSize, Change.nameOffset, natLE_length, hcw]) (by simp [Change.fields, Change.refSize, Change.nameOffset, natLE_length, hcw]) rfl
    have hf : c.file < 256 ^ 8 := by have := h.file; rwa [show c.refSize = 8 by simp [Change.refSize, hcw]] at this
    have hp : c.parent < 256 ^ 8 := by have := h.parent; rwa [show c.refSize = 8 by simp [Change.refSize, hcw]] at this
    refine ⟨unpack_of f3 hf, unpack_of f4 hp, unpack_of f5 h.usn, ?_, unpack_of f7 h.reason, unpack_of f8 h.source, unpack_of f9 h.security,
      unpack_of f10 h.attributes, ?_⟩
    · unfold Record.timestamp
      rw [show unpackLE 8 (slice (Record.raw (.v2or3 false c.bytes)) (32 + Record.increment (.v2or3 false c.bytes)) (40 + Record.increment (.v2or3 false c.bytes))) = .ok c.time
        from unpack_of f6 h.time]
    · unfold Record.fileName
      rw [show Record.nameOffset (.v2or3 false c.bytes) = .ok 60 from unpack_of f12 (by decide),
        show Record.nameLength (.v2or3 false c.bytes) = .ok (Utf16.encode c.name).length from unpack_of f11 h.nameLength]
      dsimp only
      rw [show Record.raw (.v2or3 false c.bytes) = c.bytes from rfl, f13, if_neg (by simp), (decode_encode h.name).1]
  | true =>
    have f3 : slice c.bytes 8 24 = natLE 16 c.file :=
      slice_chunk _ 3 (by simp [Change.fields, Change.refSize, Change.nameOffset, natLE_length, hcw]) (by simp [Change.fields, Change.refSize, Change.nameOffset, natLE_length, hcw]) (by rw [natLE_length])
    have f4 : slice c.bytes 24 40 = natLE 16 c.parent :=
      slice_chunk _ 4 (by simp [Change.fields, Change.refSize, Change.nameOffset, natLE_length, hcw]) (by simp [Change.fields, Change.refSize, Change.nameOffset, natLE_length, hcw]) (by rw [natLE_length])
    have f5 : slice c.bytes 40 48 = natLE 8 c.usn :=
      slice_chunk _ 5 (by simp [Change.fields, Change.refSize, Change.nameOffset, natLE_length, hcw]) (by simp [Change.fields, Change.refSize, Change.nameOffset, natLE_length, hcw]) (by rw [natLE_length])
    have f6 : slice c.bytes 48 56 = natLE 8 c.time :=
      slice_chunk _ 6 (by simp [Change.fields, Change.refSize, Change.nameOffset, natLE_length, hcw]) (by simp [Change.fields, Change.refSize, Change.nameOffset, natLE_length, hcw]) (by rw [natLE_length])
    have f7 : slice c.bytes 56 60 = natLE 4 c.reason :=
      slice_chunk _ 7 (by simp [Change.fields, Change.refSize, Change.nameOffset, natLE_length, hcw]) (by simp [Change.fields, Change.refSize, Change.nameOffset, natLE_length, hcw]) (by rw [natLE_length])
    have f8 : slice c.bytes 60 64 = natLE 4 c.source :=
      slice_chunk _ 8 (by simp [Change.fields, Change.refSize, Change.nameOffset, natLE_length, hcw]) (by simp [Change.fields, Change.refSize, Change.nameOffset, natLE_length, hcw]) (by rw [natLE_length])
    have f9 : slice c.bytes 64 68 = natLE 4 c.security :=
      slice_chunk _ 9 (by simp [Change.fields, Change.refSize, Change.nameOffset, natLE_length, hcw]) (by simp [Change.fields, Change.refSize, Change.nameOffset, natLE_length, hcw]) (by rw [natLE_length])
    have f10 : slice c.bytes 68 72 = natLE 4 c.attributes :=
      slice_chunk _ 10 (by simp [Change.fields, Change.refSize, Change.nameOffset, natLE_length, hcw]) (by simp [Change.fields, Change.refSize, Change.nameOffset, natLE_length, hcw]) (by rw [natLE_length])
    have f11 : slice c.bytes 72 74 = natLE 2 (Utf16.encode c.name).length :=
      slice_chunk _ 11 (by simp [Change.fields, Change.refSize, Change.nameOffset, natLE_length, hcw]) (by simp [Change.fields, Change.refSize, Change.nameOffset, natLE_length, hcw]) (by rw [natLE_length])
    have f12 : slice c.bytes 74 76 = natLE 2 76 :=
      slice_chunk _ 12 (by simp [Change.fields, Change.refSize, Change.nameOffset, natLE_length, hcw]) (by simp [Change.fields, Change.refSize, Change.nameOffset, natLE_length, hcw]) (by rw [natLE_length])
    have f13 : slice c.bytes 76 (76 + (Utf16.encode c.name).length) = Utf16.encode c.name :=
      slice_chunk _ 13 (by simp [Change.fields, Change.refSize, Change.nameOffset, natLE_length, hcw]) (by simp [Change.fields, Change.refSize, Change.nameOffset, natLE_length, hcw]) rfl
    have hf : c.file < 256 ^ 16 := by have := h.file; rwa [show c.refSize = 16 by simp [Change.refSize, hcw]] at this
    have hp : c.parent < 256 ^ 16 := by have := h.parent; rwa [show c.refSize = 16 by simp [Change.refSize, hcw]] at this
    refine ⟨reference_of f3 hf, reference_of f4 hp, unpack_of f5 h.usn, ?_, unpack_of f7 h.reason, unpack_of f8 h.source, unpack_of f9 h.security,
      unpack_of f10 h.attributes, ?_⟩
    · unfold Record.timestamp
      rw [show unpackLE 8 (slice (Record.raw (.v2or3 true c.bytes)) (32 + Record.increment (.v2or3 true c.bytes)) (40 + Record.increment (.v2or3 true c.bytes))) = .ok c.time
        from unpack_of f6 h.time]
    · unfold Record.fileName
      rw [show Record.nameOffset (.v2or3 true c.bytes) = .ok 76 from unpack_of f12 (by decide),
        show Record.nameLength (.v2or3 true c.bytes) = .ok (Utf16.encode c.name).length from unpack_of f11 h.nameLength]
      dsimp only
      rw [show Record.raw (.v2or3 true c.bytes) = c.bytes from rfl, f13, if_neg (by simp), (decode_encode h.name).1]

/-- A record for the file "a.txt" of version 2, and one of version 3. -/
def demoChange (wide : Bool) : Change :=
  ⟨wide, 0, 0x1000000000026, 0x5000000000005, 0x1000, 0x01D9000000000000, 0x102, 0, 0, 0x20, Str.ofString "a.txt", zeros 2⟩
example (wide : Bool) : (demoChange wide).Fits := by
  refine ⟨by cases wide <;> decide, by cases wide <;> decide, by cases wide <;> decide, by cases wide <;> decide, by cases wide <;> decide, by cases wide <;> decide, by cases wide <;> decide, by cases wide <;> decide, by cases wide <;> decide, ?_,
    by cases wide <;> decide +kernel, by cases wide <;> decide +kernel, by cases wide <;> decide +kernel⟩
  intro c hc
  have : c = 97 ∨ c = 46 ∨ c = 116 ∨ c = 120 ∨ c = 116 := by
    simpa [demoChange, Str.ofString] using hc
  exact ⟨by omega, by omega⟩

private theorem ranges_flatten_length (l : List (Int × Int)) : ((l.map rangeBytes).flatten).length = 16 * l.length := by
  induction l with
  | nil => rfl
  | cons e l ih => simp only [List.map_cons, List.flatten_cons, List.length_append, ih, List.length_cons, rangeBytes, intLE_length]; omega

private theorem ranges_length (r : Ranges) : r.bytes.length = r.length := by
  simp only [Ranges.bytes, Ranges.fields, Ranges.length, List.flatten_cons, List.flatten_nil, List.length_append, natLE_length, List.length_nil,
    ranges_flatten_length]
  omega

private theorem extents_of (raw pre more : Bytes) (l : List (Int × Int)) (pos : Nat) (hp : pre.length = pos)
    (hl : ∀ e ∈ l, (-2 ^ 63 ≤ e.1 ∧ e.1 < 2 ^ 63) ∧ -2 ^ 63 ≤ e.2 ∧ e.2 < 2 ^ 63)
    (h : raw = pre ++ ((l.map rangeBytes).flatten ++ more)) : extentsLoop raw 16 l.length pos = l.map fun e => .pair e.1 e.2 := by
  induction l generalizing pre pos with
  | nil => rfl
  | cons e l ih =>
    have he := hl e List.mem_cons_self
    have hb : (rangeBytes e).length = 16 := by simp [rangeBytes, intLE_length]
    rw [List.map_cons, List.flatten_cons, List.append_assoc] at h
    have hs : slice raw pos (pos + 16) = rangeBytes e := by
      rw [h, slice_append_right _ _ _ _ (by omega), hp, Nat.sub_self, Nat.add_sub_cancel_left, slice_append_left _ _ _ _ (by omega), slice_all (by omega)]
    rw [List.length_cons, extentsLoop, hs]
    rw [if_neg (by omega), if_pos rfl, ih (pre ++ rangeBytes e) (pos + 16) (by rw [List.length_append]; omega)
      (fun e he => hl e (List.mem_cons_of_mem _ he)) (by rw [h, List.append_assoc]), List.map_cons]
    have h1 : slice (rangeBytes e) 0 8 = intLE 8 e.1 := by
      unfold rangeBytes; rw [slice_append_left _ _ _ _ (by rw [intLE_length]; omega), slice_all (by rw [intLE_length]; omega)]
    have h2 : slice (rangeBytes e) 8 16 = intLE 8 e.2 := by
      unfold rangeBytes; rw [slice_append_right _ _ _ _ (by rw [intLE_length]; omega), intLE_length, slice_all (by rw [intLE_length]; omega)]
    rw [int_of h1 he.1, int_of h2 he.2]

/-- C118: a record of version 4 is accepted, alone or with something after it; all its fields and its ranges are the stored ones. -/
theorem C118_ranges (r : Ranges) (h : r.Fits) (rest : Bytes) :
    ∃ x, getUsnRecord (r.bytes ++ rest) = .ok x ∧ x.raw = r.bytes ∧
      x.length = .ok r.length ∧ x.majorVersion = .ok 4 ∧ x.minorVersion = .ok r.minor ∧ x.fileReference = .ok r.file ∧ x.parentReference = .ok r.parent ∧
      x.usn = .ok r.usn ∧ x.reason = .ok r.reason ∧ x.sourceInfo = .ok r.source ∧ x.remainingExtents = .ok r.remaining ∧
      x.numberOfExtents = .ok r.extents.length ∧ x.extentSize = .ok 16 ∧ x.extents = ⟨r.extents.map fun e => .pair e.1 e.2, none⟩ := by
  have hlen := ranges_length r
  have h80 := h.some
  have hal := h.aligned
  have f0 : slice r.bytes 0 4 = natLE 4 r.length := slice_chunk _ 0 rfl (by simp [Ranges.fields, natLE_length]) (by rw [natLE_length])
  have f1 : slice r.bytes 4 6 = natLE 2 4 := slice_chunk _ 1 rfl (by simp [Ranges.fields, natLE_length]) (by rw [natLE_length])
  have f2 : slice r.bytes 6 8 = natLE 2 r.minor := slice_chunk _ 2 rfl (by simp [Ranges.fields, natLE_length]) (by rw [natLE_length])
  have f3 : slice r.bytes 8 24 = natLE 16 r.file := slice_chunk _ 3 rfl (by simp [Ranges.fields, natLE_length]) (by rw [natLE_length])
  have f4 : slice r.bytes 24 40 = natLE 16 r.parent := slice_chunk _ 4 rfl (by simp [Ranges.fields, natLE_length]) (by rw [natLE_length])
  have f5 : slice r.bytes 40 48 = natLE 8 r.usn := slice_chunk _ 5 rfl (by simp [Ranges.fields, natLE_length]) (by rw [natLE_length])
  have f6 : slice r.bytes 48 52 = natLE 4 r.reason := slice_chunk _ 6 rfl (by simp [Ranges.fields, natLE_length]) (by rw [natLE_length])
  have f7 : slice r.bytes 52 56 = natLE 4 r.source := slice_chunk _ 7 rfl (by simp [Ranges.fields, natLE_length]) (by rw [natLE_length])
  have f8 : slice r.bytes 56 60 = natLE 4 r.remaining := slice_chunk _ 8 rfl (by simp [Ranges.fields, natLE_length]) (by rw [natLE_length])
  have f9 : slice r.bytes 60 62 = natLE 2 r.extents.length := slice_chunk _ 9 rfl (by simp [Ranges.fields, natLE_length]) (by rw [natLE_length])
  have f10 : slice r.bytes 62 64 = natLE 2 16 := slice_chunk _ 10 rfl (by simp [Ranges.fields, natLE_length]) (by rw [natLE_length])
  have v0 := le_of f0 h.length
  have v1 := le_of f1 (by decide)
  have hr : getUsnRecord (r.bytes ++ rest) = .ok (.v4 r.bytes) := by
    unfold getUsnRecord
    have e0 : u32 (r.bytes ++ rest) 0 = r.length := by unfold u32; rw [slice_prefix _ _ _ _ (by omega)]; exact v0
    have e1 : u16 (r.bytes ++ rest) 4 = 4 := by unfold u16; rw [slice_prefix _ _ _ _ (by omega)]; exact v1
    rw [if_neg (by rw [List.length_append]; omega)]
    dsimp only
    rw [e0, e1, if_neg (by omega), if_neg (by decide), if_neg (by decide), if_pos rfl, slice_append_left _ _ _ _ (by omega), slice_all (by omega)]
    unfold recordV4
    dsimp only
    rw [show u32 r.bytes 0 = r.length from v0, show u16 r.bytes 4 = 4 from v1, hlen, if_neg (by omega), if_neg (by omega), if_neg (by omega),
      if_neg (by decide)]
  refine ⟨_, hr, rfl, unpack_of f0 h.length, unpack_of f1 (by decide), unpack_of f2 h.minor, reference_of f3 h.file, reference_of f4 h.parent,
    unpack_of f5 h.usn, unpack_of f6 h.reason, unpack_of f7 h.source, unpack_of f8 h.remaining, unpack_of f9 h.count, unpack_of f10 (by decide), ?_⟩
  unfold Record.extents
  rw [show unpackLE 2 (slice (Record.raw (.v4 r.bytes)) 60 62) = .ok r.extents.length from unpack_of f9 h.count,
    show unpackLE 2 (slice (Record.raw (.v4 r.bytes)) 62 64) = .ok 16 from unpack_of f10 (by decide)]
  dsimp only
  congr 1
  refine extents_of r.bytes (r.fields.take 11).flatten r.padding r.extents 64 (by simp [Ranges.fields, natLE_length]) h.extents ?_
  simp [Ranges.bytes, Ranges.fields]

/-- A record of version 4 with two ranges. -/
def demoRanges : Ranges := ⟨0, 0x1000000000026, 0x5000000000005, 0x1050, 0x80000001, 0, 0, [(0, 4096), (16384, 512)], []⟩
example : demoRanges.Fits :=
  ⟨by decide, by decide, by decide, by decide, by decide, by decide, by decide, by decide, by decide, by decide +kernel, by decide +kernel, by decide +kernel⟩

/-! ### The move table -/

open Verif.MoveTable

set_option linter.unusedSimpArgs false in
private theorem header_layout (s : Header) (h : s.Fits) :
    slice s.bytes 0 16 = s.signature ∧
    slice s.bytes 16 20 = natLE 4 s.unknown16 ∧
    slice s.bytes 20 24 = natLE 4 s.flags ∧
    slice s.bytes 24 28 = natLE 4 s.unknown24 ∧
    slice s.bytes 28 32 = natLE 4 s.lowest ∧
    slice s.bytes 32 36 = natLE 4 s.highest ∧
    slice s.bytes 36 40 = natLE 4 s.fileSize ∧
    slice s.bytes 40 56 = s.machine ∧
    slice s.bytes 56 72 = s.volume ∧
    slice s.bytes 72 80 = natLE 8 s.unknown32 ∧
    slice s.bytes 80 88 = natLE 8 s.timestamp40 ∧
    slice s.bytes 88 96 = natLE 8 s.timestamp48 ∧
    slice s.bytes 96 100 = natLE 4 s.flags56 ∧
    slice s.bytes 100 104 = natLE 4 s.state60 ∧
    slice s.bytes 104 108 = natLE 4 s.index64 ∧
    slice s.bytes 108 112 = natLE 4 s.index68 ∧
    slice s.bytes 112 116 = natLE 4 s.index72 ∧
    slice s.bytes 116 120 = natLE 4 s.index76 ∧
    slice s.bytes 120 124 = natLE 4 s.index80 ∧
    slice s.bytes 124 128 = natLE 4 s.index84 ∧
    slice s.bytes 128 132 = natLE 4 s.index88 := by
  exact
  ⟨slice_chunk _ 0 rfl (by simp [Header.fields, natLE_length, intLE_length, h.signature, h.machine, h.volume]) (by simp [Header.fields, natLE_length, intLE_length, h.signature, h.machine, h.volume]),
   slice_chunk _ 1 rfl (by simp [Header.fields, natLE_length, intLE_length, h.signature, h.machine, h.volume]) (by simp [Header.fields, natLE_length, intLE_length, h.signature, h.machine, h.volume]),
   slice_chunk _ 2 rfl (by simp [Header.fields, natLE_length, intLE_length, h.signature, h.machine, h.volume]) (by simp [Header.fields, natLE_length, intLE_length, h.signature, h.machine, h.volume]),
   slice_chunk _ 3 rfl (by simp [Header.fields, natLE_length, intLE_length, h.signature, h.machine, h.volume]) (by simp [Header.fields, natLE_length, intLE_length, h.signature, h.machine, h.volume]),
   slice_chunk _ 4 rfl (by simp [Header.fields, natLE_length, intLE_length, h.signature, h.machine, h.volume]) (by simp [Header.fields, natLE_length, intLE_length, h.signature, h.machine, h.volume]),
   slice_chunk _ 5 rfl (by simp [Header.fields, natLE_length, intLE_length, h.signature, h.machine, h.volume]) (by simp [Header.fields, natLE_length, intLE_length, h.signature, h.machine, h.volume]),
   slice_chunk _ 6 rfl (by simp [Header.fields, natLE_length, intLE_length, h.signature, h.machine, h.volume]) (by simp [Header.fields, natLE_length, intLE_length, h.signature, h.machine, h.volume]),
   slice_chunk _ 7 rfl (by simp [Header.fields, natLE_length, intLE_length, h.signature, h.machine, h.volume]) (by simp [Header.fields, natLE_length, intLE_length, h.signature, h.machine, h.volume]),
   slice_chunk _ 8 rfl (by simp [Header.fields, natLE_length, intLE_length, h.signature, h.machine, h.volume]) (by simp [Header.fields, natLE_length, intLE_length, h.signature, h.machine, h.volume]),
   slice_chunk _ 9 rfl (by simp [Header.fields, natLE_length, intLE_length, h.signature, h.machine, h.volume]) (by simp [Header.fields, natLE_length, intLE_length, h.signature, h.machine, h.volume]),
   slice_chunk _ 10 rfl (by simp [Header.fields, natLE_length, intLE_length, h.signature, h.machine, h.volume]) (by simp [Header.fields, natLE_length, intLE_length, h.signature, h.machine, h.volume]),
   slice_chunk _ 11 rfl (by simp [Header.fields, natLE_length, intLE_length, h.signature, h.machine, h.volume]) (by simp [Header.fields, natLE_length, intLE_length, h.signature, h.machine, h.volume]),
   slice_chunk _ 12 rfl (by simp [Header.fields, natLE_length, intLE_length, h.signature, h.machine, h.volume]) (by simp [Header.fields, natLE_length, intLE_length, h.signature, h.machine, h.volume]),
   slice_chunk _ 13 rfl (by simp [Header.fields, natLE_length, intLE_length, h.signature, h.machine, h.volume]) (by simp [Header.fields, natLE_length, intLE_length, h.signature, h.machine, h.volume]),
   slice_chunk _ 14 rfl (by simp [Header.fields, natLE_length, intLE_length, h.signature, h.machine, h.volume]) (by simp [Header.fields, natLE_length, intLE_length, h.signature, h.machine, h.volume]),
   slice_chunk _ 15 rfl (by simp [Header.fields, natLE_length, intLE_length, h.signature, h.machine, h.volume]) (by simp [Header.fields, natLE_length, intLE_length, h.signature, h.machine, h.volume]),
   slice_chunk _ 16 rfl (by simp [Header.fields, natLE_length, intLE_length, h.signature, h.machine, h.volume]) (by simp [Header.fields, natLE_length, intLE_length, h.signature, h.machine, h.volume]),
   slice_chunk _ 17 rfl (by simp [Header.fields, natLE_length, intLE_length, h.signature, h.machine, h.volume]) (by simp [Header.fields, natLE_length, intLE_length, h.signature, h.machine, h.volume]),
   slice_chunk _ 18 rfl (by simp [Header.fields, natLE_length, intLE_length, h.signature, h.machine, h.volume]) (by simp [Header.fields, natLE_length, intLE_length, h.signature, h.machine, h.volume]),
   slice_chunk _ 19 rfl (by simp [Header.fields, natLE_length, intLE_length, h.signature, h.machine, h.volume]) (by simp [Header.fields, natLE_length, intLE_length, h.signature, h.machine, h.volume]),
   slice_chunk _ 20 rfl (by simp [Header.fields, natLE_length, intLE_length, h.signature, h.machine, h.volume]) (by simp [Header.fields, natLE_length, intLE_length, h.signature, h.machine, h.volume])⟩

set_option linter.unusedSimpArgs false in
private theorem entry_layout (s : Entry) (h : s.Fits) :
    slice s.bytes 0 4 = natLE 4 s.next ∧
    slice s.bytes 4 8 = natLE 4 s.previous ∧
    slice s.bytes 8 12 = natLE 4 s.type ∧
    slice s.bytes 12 16 = natLE 4 s.index ∧
    slice s.bytes 16 20 = natLE 4 s.unknown16 ∧
    slice s.bytes 20 36 = s.object ∧
    slice s.bytes 36 52 = s.droidVolume ∧
    slice s.bytes 52 68 = s.droidObject ∧
    slice s.bytes 68 84 = s.machine ∧
    slice s.bytes 84 100 = s.birthVolume ∧
    slice s.bytes 100 116 = s.birthObject ∧
    slice s.bytes 116 120 = natLE 4 s.time ∧
    slice s.bytes 120 124 = natLE 4 s.unknown120 := by
  exact
  ⟨slice_chunk _ 0 rfl (by simp [Entry.fields, natLE_length, intLE_length, h.object, h.droidVolume, h.droidObject, h.machine, h.birthVolume, h.birthObject]) (by simp [Entry.fields, natLE_length, intLE_length, h.object, h.droidVolume, h.droidObject, h.machine, h.birthVolume, h.birthObject]),
   slice_chunk _ 1 rfl (by simp [Entry.fields, natLE_length, intLE_length, h.object, h.droidVolume, h.droidObject, h.machine, h.birthVolume, h.birthObject]) (by simp [Entry.fields, natLE_length, intLE_length, h.object, h.droidVolume, h.droidObject, h.machine, h.birthVolume, h.birthObject]),
   slice_chunk _ 2 rfl (by simp [Entry.fields, natLE_length, intLE_length, h.object, h.droidVolume, h.droidObject, h.machine, h.birthVolume, h.birthObject]) (by simp [Entry.fields, natLE_length, intLE_length, h.object, h.droidVolume, h.droidObject, h.machine, h.birthVolume, h.birthObject]),
   slice_chunk _ 3 rfl (by simp [Entry.fields, natLE_length, intLE_length, h.object, h.droidVolume, h.droidObject, h.machine, h.birthVolume, h.birthObject]) (by simp [Entry.fields, natLE_length, intLE_length, h.object, h.droidVolume, h.droidObject, h.machine, h.birthVolume, h.birthObject]),
   slice_chunk _ 4 rfl (by simp [Entry.fields, natLE_length, intLE_length, h.object, h.droidVolume, h.droidObject, h.machine, h.birthVolume, h.birthObject]) (by simp [Entry.fields, natLE_length, intLE_length, h.object, h.droidVolume, h.droidObject, h.machine, h.birthVolume, h.birthObject]),
   slice_chunk _ 5 rfl (by simp [Entry.fields, natLE_length, intLE_length, h.object, h.droidVolume, h.droidObject, h.machine, h.birthVolume, h.birthObject]) (by simp [Entry.fields, natLE_length, intLE_length, h.object, h.droidVolume, h.droidObject, h.machine, h.birthVolume, h.birthObject]),
   slice_chunk _ 6 rfl (by simp [Entry.fields, natLE_length, intLE_length, h.object, h.droidVolume, h.droidObject, h.machine, h.birthVolume, h.birthObject]) (by simp [Entry.fields, natLE_length, intLE_length, h.object, h.droidVolume, h.droidObject, h.machine, h.birthVolume, h.birthObject]),
   slice_chunk _ 7 rfl (by simp [Entry.fields, natLE_length, intLE_length, h.object, h.droidVolume, h.droidObject, h.machine, h.birthVolume, h.birthObject]) (by simp [Entry.fields, natLE_length, intLE_length, h.object, h.droidVolume, h.droidObject, h.machine, h.birthVolume, h.birthObject]),
   slice_chunk _ 8 rfl (by simp [Entry.fields, natLE_length, intLE_length, h.object, h.droidVolume, h.droidObject, h.machine, h.birthVolume, h.birthObject]) (by simp [Entry.fields, natLE_length, intLE_length, h.object, h.droidVolume, h.droidObject, h.machine, h.birthVolume, h.birthObject]),
   slice_chunk _ 9 rfl (by simp [Entry.fields, natLE_length, intLE_length, h.object, h.droidVolume, h.droidObject, h.machine, h.birthVolume, h.birthObject]) (by simp [Entry.fields, natLE_length, intLE_length, h.object, h.droidVolume, h.droidObject, h.machine, h.birthVolume, h.birthObject]),
   slice_chunk _ 10 rfl (by simp [Entry.fields, natLE_length, intLE_length, h.object, h.droidVolume, h.droidObject, h.machine, h.birthVolume, h.birthObject]) (by simp [Entry.fields, natLE_length, intLE_length, h.object, h.droidVolume, h.droidObject, h.machine, h.birthVolume, h.birthObject]),
   slice_chunk _ 11 rfl (by simp [Entry.fields, natLE_length, intLE_length, h.object, h.droidVolume, h.droidObject, h.machine, h.birthVolume, h.birthObject]) (by simp [Entry.fields, natLE_length, intLE_length, h.object, h.droidVolume, h.droidObject, h.machine, h.birthVolume, h.birthObject]),
   slice_chunk _ 12 rfl (by simp [Entry.fields, natLE_length, intLE_length, h.object, h.droidVolume, h.droidObject, h.machine, h.birthVolume, h.birthObject]) (by simp [Entry.fields, natLE_length, intLE_length, h.object, h.droidVolume, h.droidObject, h.machine, h.birthVolume, h.birthObject])⟩

set_option linter.unusedSimpArgs false in
private theorem footer_layout (s : Footer) (h : s.Fits) :
    slice s.bytes 0 4 = natLE 4 s.lowest ∧
    slice s.bytes 4 8 = natLE 4 s.next ∧
    slice s.bytes 8 16 = s.unused := by
  exact
  ⟨slice_chunk _ 0 rfl (by simp [Footer.fields, natLE_length, intLE_length, h.unused]) (by simp [Footer.fields, natLE_length, intLE_length, h.unused]),
   slice_chunk _ 1 rfl (by simp [Footer.fields, natLE_length, intLE_length, h.unused]) (by simp [Footer.fields, natLE_length, intLE_length, h.unused]),
   slice_chunk _ 2 rfl (by simp [Footer.fields, natLE_length, intLE_length, h.unused]) (by simp [Footer.fields, natLE_length, intLE_length, h.unused])⟩


private theorem sub_slice (b : Bytes) (i j k l : Nat) (h : j + k ≤ l) (hj : i ≤ k) : slice (slice b j l) i k = slice b (j + i) (j + k) := by
  unfold slice
  rw [List.drop_take, List.drop_drop, List.take_take]
  congr 1
  omega

private theorem header_length (s : Header) (h : s.Fits) : s.bytes.length = 132 + s.rest.length := by
  obtain ⟨h1, _, _, _, _, _, _, h2, h3⟩ := h
  simp only [Header.bytes, Header.fields, List.flatten_cons, List.flatten_nil, List.length_append, natLE_length, List.length_nil, h1, h2, h3]
  generalize s.rest.length = n
  clear h1 h2 h3
  omega

/-- C118: the header of a move table is accepted, and its fields are the stored ones. -/
theorem C118_header (s : Header) (h : s.Fits) (hm : s.signature = moveTableMark) (hr : s.rest.length = 380 ∨ s.rest.length = 3964) :
    header s.bytes = .ok s.bytes ∧ headerUnknown16 s.bytes = s.unknown16 ∧ headerFlags s.bytes = s.flags ∧ isLogFlushed s.bytes = s.flags.testBit 0 ∧
    headerUnknown24 s.bytes = s.unknown24 ∧ expansionData s.bytes = ⟨s.lowest, s.highest, s.fileSize⟩ ∧
    extendedHeader s.bytes = ⟨Scripts.decodeString (s.machine.takeWhile (· ≠ 0)), s.volume, s.unknown32, s.timestamp40, s.timestamp48, s.flags56, s.state60,
      [s.index64, s.index68, s.index72, s.index76, s.index80, s.index84, s.index88]⟩ := by
  obtain ⟨h_signature, h_unknown16, h_flags, h_unknown24, h_lowest, h_highest, h_fileSize, h_machine, h_volume, h_unknown32, h_timestamp40, h_timestamp48,
    h_flags56, h_state60, h_index64, h_index68, h_index72, h_index76, h_index80, h_index84, h_index88⟩ := header_layout s h
  have hlen := header_length s h
  have hf : headerFlags s.bytes = s.flags := le_of h_flags h.flags
  refine ⟨?_, le_of h_unknown16 h.unknown16, hf, ?_, le_of h_unknown24 h.unknown24, ?_, ?_⟩
  · unfold header
    rw [if_neg (by omega), if_neg (by rw [h_signature, hm]; decide)]
  · unfold isLogFlushed
    rw [hf, Nat.and_one_is_mod, Nat.testBit_zero]
    rcases Nat.mod_two_eq_zero_or_one s.flags with h | h <;> simp [h]
  · unfold expansionData
    rw [show u32 s.bytes 28 = s.lowest from le_of h_lowest h.lowest, show u32 s.bytes 32 = s.highest from le_of h_highest h.highest,
      show u32 s.bytes 36 = s.fileSize from le_of h_fileSize h.fileSize]
  · unfold extendedHeader u32 u64
    dsimp only
    have e : ∀ i k, i ≤ k → k ≤ 92 → slice (slice s.bytes 40 132) i k = slice s.bytes (40 + i) (40 + k) := fun i k h1 h2 => sub_slice _ _ _ _ _ (by omega) h1
    simp only [Nat.reduceAdd]
    rw [e 0 16 (by decide) (by decide), e 16 32 (by decide) (by decide), e 32 40 (by decide) (by decide), e 40 48 (by decide) (by decide), e 48 56 (by decide) (by decide), e 56 60 (by decide) (by decide), e 60 64 (by decide) (by decide), e 64 68 (by decide) (by decide), e 68 72 (by decide) (by decide), e 72 76 (by decide) (by decide), e 76 80 (by decide) (by decide), e 80 84 (by decide) (by decide), e 84 88 (by decide) (by decide), e 88 92 (by decide) (by decide)]
    simp only [Nat.reduceAdd]
    rw [h_machine, h_volume, le_of h_unknown32 h.unknown32, le_of h_timestamp40 h.timestamp40, le_of h_timestamp48 h.timestamp48, le_of h_flags56 h.flags56,
      le_of h_state60 h.state60, le_of h_index64 h.index64, le_of h_index68 h.index68, le_of h_index72 h.index72, le_of h_index76 h.index76,
      le_of h_index80 h.index80, le_of h_index84 h.index84, le_of h_index88 h.index88]

private theorem entry_length (s : Entry) (h : s.Fits) : s.bytes.length = 124 := by
  simp only [Entry.bytes, Entry.fields, List.flatten_cons, List.flatten_nil, List.length_append, natLE_length, List.length_nil, h.object, h.droidVolume,
    h.droidObject, h.machine, h.birthVolume, h.birthObject]

/-- C118: an entry of the log is accepted if it is unused or a move, and its fields are the stored ones. -/
theorem C118_entry (s : Entry) (h : s.Fits) (ht : s.type = 1 ∨ s.type = 2) :
    logEntry s.bytes = .ok s.bytes ∧ entryNext s.bytes = s.next ∧ entryPrevious s.bytes = s.previous ∧ entryType s.bytes = .ok s.type ∧
    entryIndex s.bytes = s.index ∧ entryUnknown16 s.bytes = s.unknown16 ∧ Scripts.entryObjectId s.bytes = s.object ∧
    Scripts.entryDroid s.bytes = (s.droidVolume, s.droidObject) ∧ machineIdRaw s.bytes = s.machine.takeWhile (· ≠ 0) ∧
    entryMachineId s.bytes = Scripts.decodeString (s.machine.takeWhile (· ≠ 0)) ∧ Scripts.entryBirthDroid s.bytes = (s.birthVolume, s.birthObject) ∧
    timestamp s.bytes = .ok (Attributes.decodeFiletime (s.time * 2 ^ 32), Attributes.decodeFiletime (s.time * 2 ^ 32 + (2 ^ 32 - 1))) ∧
    entryUnknown120 s.bytes = s.unknown120 := by
  obtain ⟨h_next, h_previous, h_type, h_index, h_unknown16, h_object, h_droidVolume, h_droidObject, h_machine, h_birthVolume, h_birthObject, h_time,
    h_unknown120⟩ := entry_layout s h
  have hlen := entry_length s h
  have hty : entryType s.bytes = .ok s.type := unpack_of h_type h.type
  have hmr : machineIdRaw s.bytes = s.machine.takeWhile (· ≠ 0) := by unfold machineIdRaw; rw [h_machine]
  refine ⟨?_, le_of h_next h.next, le_of h_previous h.previous, hty, le_of h_index h.index, le_of h_unknown16 h.unknown16, h_object, ?_, hmr, ?_, ?_, ?_,
    le_of h_unknown120 h.unknown120⟩
  · unfold logEntry
    rw [if_neg (by omega), hty]
    exact if_neg (by omega)
  · unfold Scripts.entryDroid; rw [h_droidVolume, h_droidObject]
  · unfold entryMachineId; rw [hmr]
  · unfold Scripts.entryBirthDroid; rw [h_birthVolume, h_birthObject]
  · unfold timestamp
    rw [unpack_of h_time h.time]
    dsimp only
    rw [← Nat.shiftLeft_add_eq_or_of_lt (by decide), Nat.shiftLeft_eq]

private theorem sector_of (buf pre more : Bytes) (l : List Entry) (pos : Nat) (hp : pre.length = pos) (hl : ∀ e ∈ l, e.Fits ∧ (e.type = 1 ∨ e.type = 2))
    (h : buf = pre ++ ((l.map Entry.bytes).flatten ++ more)) (h1 : 16 ≤ more.length) (h2 : more.length < 140) :
    sectorEntriesLoop buf pos = ⟨l.map Entry.bytes, none⟩ := by
  induction l generalizing pre pos with
  | nil =>
    have hb : buf.length = pos + more.length := by rw [h]; simp [hp]
    rw [sectorEntriesLoop.eq_def, if_neg (by omega)]
    rfl
  | cons e l ih =>
    obtain ⟨he, ht⟩ := hl e List.mem_cons_self
    have hb := entry_length e he
    rw [List.map_cons, List.flatten_cons, List.append_assoc] at h
    have hlen : buf.length ≥ pos + 124 + more.length := by
      rw [h]; simp only [List.length_append]; omega
    have hs : slice buf pos (pos + 124) = e.bytes := by
      rw [h, slice_append_right _ _ _ _ (by omega), hp, Nat.sub_self, Nat.add_sub_cancel_left, slice_append_left _ _ _ _ (by omega), slice_all (by omega)]
    rw [sectorEntriesLoop.eq_def, if_pos (by omega), hs]
    dsimp only
    rw [if_neg (by omega), (C118_entry e he ht).1]
    dsimp only
    rw [ih (pre ++ e.bytes) (pos + 124) (by rw [List.length_append]; omega) (fun e he => hl e (List.mem_cons_of_mem _ he)) (by rw [h, List.append_assoc])]
    rfl

/-- C118: the entries of a sector of the log are the stored ones, in the same order, and so are the fields of its footer. -/
theorem C118_sector (l : List Entry) (hl : ∀ e ∈ l, e.Fits ∧ (e.type = 1 ∨ e.type = 2)) (space : Bytes) (hs : space.length < 124) (f : Footer) (hf : f.Fits)
    (hlen : (sectorBytes l space f).length = 512 ∨ (sectorBytes l space f).length = 4096) :
    sectorEntries (sectorBytes l space f) = ⟨l.map Entry.bytes, none⟩ ∧
    ∃ buf, footer (sectorBytes l space f) = .ok buf ∧ footerLowest buf = f.lowest ∧ footerNext buf = f.next ∧ footerUnused buf = f.unused := by
  obtain ⟨h_lowest, h_next, h_unused⟩ := footer_layout f hf
  have hfl : f.bytes.length = 16 := by
    simp only [Footer.bytes, Footer.fields, List.flatten_cons, List.flatten_nil, List.length_append, natLE_length, List.length_nil, hf.unused]
  refine ⟨sector_of _ [] (space ++ f.bytes) l 0 rfl hl rfl (by rw [List.length_append]; omega) (by rw [List.length_append]; omega), f.bytes, ?_,
    le_of h_lowest hf.lowest, le_of h_next hf.next, ?_⟩
  · unfold footer
    rw [if_neg (by omega)]
    congr 1
    unfold sectorBytes
    rw [← List.append_assoc, List.drop_append_of_le_length (by simp only [List.length_append]; omega), List.drop_of_length_le (by simp only [List.length_append]; omega),
      List.nil_append]
  · unfold footerUnused
    rw [← h_unused]
    unfold slice
    rw [List.take_of_length_le (by rw [List.length_drop]; omega)]

/-- A header, an entry for a move, and a sector with four entries. -/
def demoHeader : Header :=
  ⟨moveTableMark, 1, 1, 0, 1, 4, 1024, [0x70, 0x63, 0x31] ++ zeros 13, zeros 16, 0, 0, 0, 0, 0, 0, 0, 0, 0, 0, 0, 0, zeros 380⟩
example : demoHeader.Fits ∧ demoHeader.signature = moveTableMark ∧ demoHeader.rest.length = 380 :=
  ⟨⟨by decide, by decide, by decide, by decide, by decide, by decide, by decide, by decide, by decide, by decide, by decide, by decide, by decide, by decide,
    by decide, by decide, by decide, by decide, by decide, by decide, by decide⟩, rfl, zeros_length _⟩
def demoEntry : Entry := ⟨2, 0, 2, 1, 0, zeros 16, zeros 16, zeros 16, [0x70, 0x63, 0x31] ++ zeros 13, zeros 16, zeros 16, 0x01D90000, 0⟩
theorem demoEntry_fits : demoEntry.Fits :=
  ⟨by decide, by decide, by decide, by decide, by decide, by decide, by decide, by decide, by decide, by decide, by decide, by decide, by decide⟩
def demoFooter : Footer := ⟨1, 5, zeros 8⟩
example : demoFooter.Fits ∧ (sectorBytes (List.replicate 4 demoEntry) [] demoFooter).length = 512 := by
  refine ⟨⟨by decide, by decide, by decide⟩, by decide +kernel⟩

end Verif.Props.JournalFields
