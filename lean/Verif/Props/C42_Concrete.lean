/-
C42 and C43: a shadow copy of 256 bytes in a small volume.
-/
import Verif.Props.C42_C43
import Verif.Proof.SampleShadow
namespace Verif.Props
open Verif.ShadowCopy Verif.Spec.Shadow

theorem sample_sector (i : Nat) : sector [SampleShadow.store] 0 true false i = .store (0xC000 + i * 512) := by
  apply C41_copy SampleShadow.store [] 0 i ⟨0, 0, 0xC000, 0, 0⟩ (by decide +kernel)
  have : ¬ Overlays i ⟨0, 0, 0xC000, 0, 0⟩ := fun h => absurd h.1 (by decide +kernel)
  unfold lastEntry SampleShadow.store
  rw [List.filter_cons_of_neg (by simpa using this)]
  rfl

/-- The image has the whole block. -/
theorem sample_readable (n : Nat) (hn : n ≤ 0x4000) : Readable SampleShadow.image [SampleShadow.store] 0 n := by
  refine ⟨fun p _ h => ?_, fun p _ h => ?_, fun s hs e he hf => ?_⟩
  · have hp : p < 0x4000 := by omega
    unfold byteAt
    rw [show p / 0x4000 * 0x4000 = 0 by omega, sample_sector]
    unfold sourceByte
    dsimp only
    have hl : SampleShadow.image.store.1.length = 0x10000 := SampleShadow.file_length
    rw [show SampleShadow.image.store.2 = 0 from rfl, List.getElem?_eq_getElem (by rw [hl]; omega)]
    rfl
  · have hp : p / 0x4000 = 0 := by omega
    rw [hp, sample_sector]
    show 0 + (0xC000 + p % 0x4000 / 512 * 512) < 2 ^ 63
    omega
  · simp only [List.mem_singleton] at hs
    subst hs
    simp only [SampleShadow.store, List.mem_singleton] at he
    subst he
    exact absurd hf (by decide +kernel)

theorem sample_size : shadowSize SampleShadow.image [SampleShadow.store] = 256 := rfl

/-- A case for C42: the bytes 3 to 203 of the shadow copy. -/
example : ∃ d, ShadowCopy.read SampleShadow.image [SampleShadow.store] 3 (some 200) = (.ok d, 203) ∧ d.length = 200 ∧
    ∀ i, i < 200 → d[i]? = byteAt SampleShadow.image [SampleShadow.store] (3 + i) :=
  C42_exact SampleShadow.image 2 (.position 1) _ (SampleShadow.select_image 0) 3 200 (by rw [sample_size]; omega)
    ⟨(sample_readable 203 (by omega)).bytes, (sample_readable 203 (by omega)).offsets, (sample_readable 203 (by omega)).forwarders⟩

/-- C43 is false: a read of 512 bytes of this shadow copy of 256 bytes returns 512 bytes. -/
theorem C43_beyond_size : ∃ (img : Image) (fuel : Nat) (key : Key) (stores : List Store) (d : Bytes),
    select img fuel key = some (.ok stores) ∧ ShadowCopy.read img stores 0 (some 512) = (.ok d, 512) ∧
    shadowSize img stores = 256 ∧ d.length = 512 := by
  obtain ⟨d, h1, h2⟩ := C42_complete SampleShadow.image 2 (.position 1) _ (SampleShadow.select_image 0) 0 512 512 (by rw [sample_size]; omega)
    (.inl (by omega)) (sample_readable 512 (by omega))
  rw [sample_size, show min 512 (roundUp 256 - 0) = 512 by decide +kernel] at h2
  rw [h2] at h1
  exact ⟨SampleShadow.image, 2, .position 1, _, d, SampleShadow.select_image 0, h1, sample_size, h2⟩

end Verif.Props
