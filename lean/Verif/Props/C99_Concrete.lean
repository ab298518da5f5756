/-
A concrete volume that meets the hypotheses of C99 and refutes a part of it.
-/
import Verif.Props.C99
import Verif.Props.C98_Concrete
import Verif.Proof.SampleVolume
namespace Verif.Props
open Verif.MFT Verif.Scripts Verif.Spec.Parser Verif.Spec.MftTable Verif.Spec.IndexTable Verif.Attributes

/-- An index allocation of file names: 1024 bytes at the cluster 13. -/
def indexExtent : Bytes :=
  natLE 4 0xA0 ++ [80, 0, 0, 0, 1, 4, 64, 0, 0, 0, 0, 0] ++ natLE 8 0 ++ natLE 8 1 ++ [72, 0] ++ zeros 6 ++
    natLE 8 1024 ++ natLE 8 1024 ++ natLE 8 1024 ++ [0x24, 0, 0x49, 0, 0x33, 0, 0x30, 0] ++ [0x11, 2, 13, 0, 0, 0, 0, 0]

/-- An index buffer with one entry (a file name of one character, for the file 7) and the last entry, without slack space. -/
def indexBuffer (name : Bytes) : Bytes :=
  [0x49, 0x4E, 0x44, 0x58, 40, 0, 3, 0] ++ zeros 16 ++ natLE 4 24 ++ natLE 4 1000 ++ natLE 4 1000 ++ zeros 4 ++ zeros 8 ++
    natLE 6 7 ++ natLE 2 1 ++ [88, 0, 68, 0, 0, 0, 0, 0] ++ name ++ zeros 4 ++
    zeros 8 ++ [16, 0, 0, 0, 2, 0, 0, 0] ++ zeros (1024 - 48 - 88 - 16)

/-- A volume with the directory `/d` (1) and a file name in the index of the root directory. -/
def indexVolume (name : Bytes) : Bytes :=
  [mkBoot 1, tightSegment 0 1 1 [mkExtent 0x80 0 11 6144 [0x11, 12, 1, 0]],
    tightSegment 1 1 3 [mkAttr 0x30 (mkName 5 5 3 "d")], zeros 1024,
    tightSegment 3 3 1 [mkAttr 0x70 (zeros 8 ++ [3, 1, 0, 0])], zeros 1024,
    tightSegment 5 5 3 [mkAttr 0x30 (mkName 5 5 3 "."), indexExtent], indexBuffer name].flatten

/-- The file table of the volume. -/
def indexMft (name : Bytes) : Bytes := slice (indexVolume name) 512 6656

/-- The file name `f`, whose parent is the directory `/d` (1). -/
def strayVolume : Bytes := indexVolume (mkName 1 1 1 "f")

/-- The paths in a table. -/
def pathsOf (g : Gen Row) : List (Option Cell) × Option Exc := (g.items.tail.map fun row => row[3]?, g.err)

/-- The path of the record with this number and sequence number, in a file table. -/
def pathIn? (mft : Bytes) (number sequence : Nat) : Option Str :=
  match Parser.init mft true with
  | .ok p => pathBy p number sequence
  | .error _ => none

/-- C99 does not hold as stated: a file name in the index of the root directory, with the directory `/d` (the record 1, and its sequence
number 1) as its parent, is listed as `/f`, not as `/d/f`.  (The path of the directory with the index is looked up again, not the one of the
recorded parent.) -/
theorem C99_wrong_parent : parentOf (mkName 1 1 1 "f") = 1 + 2 ^ 48 ∧ pathIn? (indexMft (mkName 1 1 1 "f")) 1 1 = some (Str.ofString "/d") ∧
    pathsOf (processIndx strayVolume 0) = ([some (.str (Str.ofString "/f"))], none) := by decide +kernel

/-! ### The hypotheses of `C99_index_table` and `C99_complete_partial` are met -/

/-- A check for the indexes of a record to be listable. -/
def listableCheck (volume : Bytes) (off cs : Nat) (r : FileRecord) : Bool :=
  decide (r.mergedAttributes.err = none) && r.mergedAttributes.items.all fun m =>
    match indexStream m with
    | none => true
    | some (runs, size) =>
      decide ((allocationBuffers ⟨volume, off, cs, runs, size.toNat⟩).err = none) &&
        (allocationBuffers ⟨volume, off, cs, runs, size.toNat⟩).items.all fun b => decide ((indexBufferEntries b).err = none)

theorem listable_of_check {volume : Bytes} {off cs : Nat} {r : FileRecord} (h : listableCheck volume off cs r = true) : Listable volume off cs r := by
  unfold listableCheck at h
  rw [Bool.and_eq_true, decide_eq_true_eq, List.all_eq_true] at h
  refine ⟨h.1, fun m hm runs size hi => ?_⟩
  have := h.2 m hm
  rw [(indexStream_iff m runs size).2 hi] at this
  dsimp only at this
  rw [Bool.and_eq_true, decide_eq_true_eq] at this
  exact ⟨_, (allocationBuffers_some _).2 this.1, fun b hb => of_decide_eq_true (List.all_eq_true.1 this.2 b hb)⟩

/-- A check for the hypotheses. -/
def volumeCheck (volume : Bytes) : Bool :=
  match openVolume volume 0 with
  | .error _ => false
  | .ok f =>
    match contents f with
    | .error _ => false
    | .ok mft =>
      match Parser.init mft true with
      | .error _ => false
      | .ok p => p.size == 1024 && mft.length == 6144 && usableCheck mft 1024 && p.fileRecords.items.length == 4 &&
          p.fileRecords.items.all (listableCheck volume 0 f.clusterSize)

example : ∃ f mft p, openVolume strayVolume 0 = .ok f ∧ contents f = .ok mft ∧ Parser.init mft true = .ok p ∧ UsableTable mft p.size ∧
    p.fileRecords.items.length = 4 ∧ ∀ r ∈ p.fileRecords.items, Listable strayVolume 0 f.clusterSize r := by
  have h : volumeCheck strayVolume = true := by decide +kernel
  unfold volumeCheck at h
  cases hf : openVolume strayVolume 0 with
  | error e => rw [hf] at h; cases h
  | ok f =>
    rw [hf] at h
    dsimp only at h
    cases hm : contents f with
    | error e => rw [hm] at h; cases h
    | ok mft =>
      rw [hm] at h
      dsimp only at h
      cases hp : Parser.init mft true with
      | error e => rw [hp] at h; cases h
      | ok p =>
        rw [hp] at h
        simp only [Bool.and_eq_true, beq_iff_eq, List.all_eq_true] at h
        obtain ⟨⟨⟨⟨h1, h2⟩, h3⟩, h4⟩, h5⟩ := h
        refine ⟨f, mft, p, rfl, hm, hp, ?_, h4, fun r hr => listable_of_check (h5 r hr)⟩
        rw [h1]
        exact usable_of_check (by decide) ⟨6, by rw [h2]⟩ h3

/-- The hypothesis of `C99_parent_partial` is met. -/
example : parentOf (mkName 5 5 1 "e") = encodeFileRecordSegmentReference 5 5 := by decide +kernel

end Verif.Props
