/-
C71: which bitmap of an exFAT volume is used.
-/
import Verif.Props.C80
namespace Verif.Props.ExFAT
open Verif.ExFAT Verif.Spec.ExFAT

theorem firstBitmap_some {activeFat : Bool} {items : List Item} {c : Nat} (h : firstBitmap activeFat items = some c) :
    ∃ before size after, items = before ++ .bitmap (if activeFat = true then 1 else 0) c size :: after ∧
      ∀ c' size', Item.bitmap (if activeFat = true then 1 else 0) c' size' ∉ before := by
  have hid : activeFat.toNat = if activeFat = true then 1 else 0 := by cases activeFat <;> rfl
  induction items with
  | nil => unfold firstBitmap at h; cases h
  | cons item items ih =>
    have skip : firstBitmap activeFat items = some c → (∀ c' size', item ≠ .bitmap (if activeFat = true then 1 else 0) c' size') →
        ∃ before size after, item :: items = before ++ .bitmap (if activeFat = true then 1 else 0) c size :: after ∧
          ∀ c' size', Item.bitmap (if activeFat = true then 1 else 0) c' size' ∉ before := by
      intro h hi
      obtain ⟨before, size, after, h1, h2⟩ := ih h
      refine ⟨item :: before, size, after, by rw [h1]; rfl, fun c' size' hm => ?_⟩
      rcases List.mem_cons.mp hm with hm | hm
      · exact hi c' size' hm.symm
      · exact h2 c' size' hm
    unfold firstBitmap at h
    cases item with
    | bitmap i c0 size0 =>
      dsimp only at h
      split at h
      · rename_i hi
        cases h
        exact ⟨[], size0, items, by rw [hi, hid]; rfl, fun _ _ hm => by cases hm⟩
      · rename_i hi
        refine skip h (fun c' size' he => ?_)
        cases he
        exact hi hid.symm
    | file e => exact skip h (fun _ _ he => by cases he)
    | label s => exact skip h (fun _ _ he => by cases he)
    | orphan s => exact skip h (fun _ _ he => by cases he)

/-- C71: the bitmap of a volume is read from the chain of the first bitmap entry in the root directory with the number of the active table
(0 for the first table, 1 for the second one). -/
theorem C71_bitmap (object : Bytes) (offset : Nat) (size : Option Nat) (v : Volume) (h : openVolume object offset size = .ok v) :
    ∃ root before cluster length after, v.readChain v.br.firstClusterOfRootDirectory none false = .ok root ∧
      (listDirectory true root).items = before ++ .bitmap (if v.br.activeFat = true then 1 else 0) cluster length :: after ∧
      (∀ cluster' length', Item.bitmap (if v.br.activeFat = true then 1 else 0) cluster' length' ∉ before) ∧
      v.readChain cluster none false = .ok v.bitmap.buf := by
  obtain ⟨_, _, h3⟩ := C67_reported object offset size v h
  unfold findBitmap at h3
  obtain ⟨buf, hb, h4⟩ := bind_ok.mp h3
  obtain ⟨_, ho, h5⟩ := bind_ok.mp h4
  split at h5
  · rename_i c hc
    obtain ⟨bm, hm, h6⟩ := bind_ok.mp h5
    obtain ⟨before, length, after, h7, h8⟩ := firstBitmap_some hc
    refine ⟨buf, before, c, length, after, hb, ?_, h8, ?_⟩
    · unfold listDirectory
      rw [ho]
      exact h7
    · rw [← Except.ok.inj h6]
      exact hm
  · split at h5 <;> cases h5

/-- The hypothesis of `C71_bitmap` is met. -/
example : ∃ v, openVolume orphanVolume 0 none = .ok v := by
  have h : (match openAfter orphanVolume with | .error _ => false | .ok _ => true) = true := by decide +kernel
  split at h
  · cases h
  rename_i v hv
  refine ⟨v, ?_⟩
  unfold orphanVolume at hv ⊢
  rw [open_tiny _ _ _ (by decide +kernel) (by decide +kernel) (by decide +kernel), hv]

end Verif.Props.ExFAT
