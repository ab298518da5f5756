/-
C119: a volume whose file table is cut off.
-/
import Verif.Props.C119
import Verif.Props.C109_Concrete
namespace Verif.Props.AllMft
open Verif.MFT Verif.Scripts Verif.ShadowCopy Verif.Spec.FragmentedFile

/-- The image ends inside the last record of the file table. -/
def cutVolume : Bytes := (tableArea (zeros 1024)).take 6000

theorem cut_opens : ∃ f, MFT.openVolume cutVolume 0 = .ok f ∧ f.fileSize = 6144 ∧ fileByte f 6100 = none := by
  have h : (match MFT.openVolume cutVolume 0 with
    | .error _ => false
    | .ok f => decide (f.fileSize = 6144 ∧ fileByte f 6100 = none)) = true := by decide +kernel
  cases hf : MFT.openVolume cutVolume 0 with
  | error e => rw [hf] at h; cases h
  | ok f => rw [hf] at h; exact ⟨f, rfl, of_decide_eq_true h⟩

/-- The hypotheses of `C119_all_or_nothing` are met: five of the six records are there, and there is no list of them. -/
example : (∃ e, processAllMft cutVolume 0 2 = some ⟨[], some e⟩) ∧ ∃ e, processIndx cutVolume 0 = ⟨[], some e⟩ := by
  obtain ⟨f, h1, h2, h3⟩ := cut_opens
  exact C119_all_or_nothing cutVolume 0 2 f h1 6100 (by omega) h3

/-- The hypotheses of `C119_accepted` and `C119_complete` are met by the file table of the volume of C109. -/
example : ∃ (f : DeviceFile) (size : Nat) (cache : List (Nat × List Nat)), openDevice (strict oldTable) 0 = .ok f ∧
    initFrom f.readAt f.fileSize = .ok (size, cache) ∧ size ∣ f.fileSize := by
  obtain ⟨f, mft, p, h1, h2, h3, h4, -⟩ := cut_old_listed
  exact ⟨f, p.size, p.cache, h1, C119_complete f mft p h2 h3 h4, by rw [← f.contents_length h2]; exact h4⟩

end Verif.Props.AllMft
