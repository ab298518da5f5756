/-
C127: the exceptions of reading a selected shadow copy.
-/
import Verif.Props.C42_Concrete
namespace Verif.Props
open Verif.ShadowCopy Verif.Spec.Shadow

theorem readSource_error {img : Image} {x : Source} {e : Exc} (h : readSource img x = .error e) : e = .OverflowError ∧ ¬ Seekable img x := by
  cases x with
  | zero => cases h
  | volume o =>
    unfold readSource at h
    dsimp only at h
    unfold seekRead at h
    split at h
    · rename_i hc
      cases h
      refine ⟨rfl, fun hs => ?_⟩
      unfold Seekable at hs
      dsimp only at hs
      omega
    · cases h
  | store o =>
    unfold readSource at h
    dsimp only at h
    unfold seekRead at h
    split at h
    · rename_i hc
      cases h
      refine ⟨rfl, fun hs => ?_⟩
      unfold Seekable at hs
      dsimp only at hs
      omega
    · cases h

theorem readSources_error {img : Image} {e : Exc} : ∀ (l : List Source), readSources img l = .error e →
    e = .OverflowError ∧ ∃ x ∈ l, ¬ Seekable img x := by
  intro l
  induction l with
  | nil => intro h; cases h
  | cons x l ih =>
    intro h
    rw [readSources] at h
    split at h
    · rename_i hx
      cases h
      exact ⟨(readSource_error hx).1, x, List.mem_cons_self, (readSource_error hx).2⟩
    · split at h
      · cases h
      · split at h
        · rename_i hx
          cases h
          obtain ⟨h1, y, h2, h3⟩ := ih hx
          exact ⟨h1, y, List.mem_cons_of_mem _ h2, h3⟩
        · cases h

/-- Why a block of a shadow copy cannot be read. -/
def Unreadable (img : Image) (stores : List Store) (e : Exc) : Prop :=
  (e = .ValueError ∧ ¬ ForwardersInside img.volumeSize stores) ∨
  (e = .OverflowError ∧ ∃ p, p / 0x4000 * 0x4000 < shadowSize img stores ∧ ¬ Seekable img (sector stores (p / 0x4000 * 0x4000) true false (p % 0x4000 / 512)))

theorem readBlock_error {img : Image} {stores : List Store} (hne : stores ≠ []) (hl : ∀ s ∈ stores, Loaded s) {b : Nat} {e : Exc}
    (hb : b * 0x4000 < shadowSize img stores) (h : readBlock img stores (b * 0x4000) = .error e) : Unreadable img stores e := by
  unfold readBlock at h
  have ho : BlockOffset img.volumeSize (b * 0x4000) := by
    refine ⟨Nat.dvd_mul_left _ _, fun n hn => ?_⟩
    unfold shadowSize at hb
    rw [hn] at hb
    cases stores with
    | nil => exact absurd rfl hne
    | cons s rest => dsimp only at hb; omega
  rcases translate_outcome img.volumeSize stores hne hl (b * 0x4000) false false with ⟨l, h1, h2, h3⟩ | ⟨h1, h2⟩
  · rw [h1] at h
    dsimp only at h
    obtain ⟨g1, x, g2, g3⟩ := readSources_error l h
    obtain ⟨i, hi⟩ := List.mem_iff_getElem?.mp g2
    have hi32 : i < 32 := by rw [← h2]; exact (List.getElem?_eq_some_iff.mp hi).1
    rw [h3 i hi32] at hi
    cases hi
    refine .inr ⟨g1, b * 0x4000 + i * 512, ?_, ?_⟩
    · rw [show (b * 0x4000 + i * 512) / 0x4000 = b by omega]; exact hb
    · rw [show (b * 0x4000 + i * 512) / 0x4000 = b by omega, show (b * 0x4000 + i * 512) % 0x4000 / 512 = i by omega]; exact g3
  · rw [h1] at h
    cases h
    exact .inl ⟨rfl, fun hf => h2 ⟨ho, hf⟩⟩

theorem readLoop_error (img : Image) (stores : List Store) (hne : stores ≠ []) (hl : ∀ s ∈ stores, Loaded s) (p left : Nat) (data : Bytes) (e : Exc)
    (h : (readLoop img stores (shadowSize img stores) p left data).1 = .error e) : Unreadable img stores e := by
  generalize hz : shadowSize img stores = size at h
  fun_induction readLoop img stores size p left data with
  | case1 => cases h
  | case2 => cases h
  | case3 p left data h1 h2 e' h3 =>
    cases h
    exact readBlock_error hne hl (by omega) h3
  | case4 p left data h1 h2 d h3 new h4 ih => exact ih h
  | case5 => cases h

/-- C127: reading a selected shadow copy raises nothing but `ValueError`, when the metadata has a forwarder to something that is not a block of the
volume, and `OverflowError`, when a sector of the shadow copy is recorded at an offset beyond 2^63. -/
theorem C127_read (img : Image) (fuel : Nat) (key : Key) (stores : List Store) (h : select img fuel key = some (.ok stores)) (p : Nat) (n : Option Int) (e : Exc)
    (he : (ShadowCopy.read img stores p n).1 = .error e) :
    (e = .ValueError ∧ ¬ ForwardersInside img.volumeSize stores) ∨
    (e = .OverflowError ∧ ∃ p, p / 0x4000 * 0x4000 < shadowSize img stores ∧
      ¬ Seekable img (sector stores (p / 0x4000 * 0x4000) true false (p % 0x4000 / 512))) := by
  obtain ⟨hne, hl⟩ := C41_selected img fuel key stores h
  unfold ShadowCopy.read at he
  cases stores with
  | nil => exact absurd rfl hne
  | cons s next =>
    dsimp only at he
    rw [virtualSize_eq img s next] at he
    split at he
    · cases he
    rename_i hc
    split at he
    · rename_i hb
      cases he
      exact readBlock_error hne hl (by omega) hb
    · exact readLoop_error img (s :: next) hne hl _ _ _ e he

/-! ### A sample -/

open Verif.SampleShadow (header start start_length control control_length control_block_length zeros_length chain_single open_single readStore_single select_single
  block_head u64_head u32_head items_control item2 item3)

/-- The table: the block 0 was copied to 2^63. -/
def farTable : Bytes := [header 3 0 0x8000 0, zeros 80, natLE 8 0, natLE 8 0, natLE 8 (2 ^ 63), natLE 8 0].flatten
def farVolume : Bytes := start ++ (zeros 0x2000 ++ ((control 256 ++ zeros 16000) ++ (farTable ++ zeros 16224)))
def farImage : Image := ⟨farVolume, 0, none, none⟩
def farStore : Store := ⟨256, [], [], [⟨0, 0, 2 ^ 63, 0, 0⟩], [], false⟩

theorem farTable_length : farTable.length = 160 := by decide +kernel
theorem farTable_block_length : (farTable ++ zeros 16224).length = 0x4000 := by rw [List.length_append, farTable_length, zeros_length]

theorem far_read_start : seekRead farVolume 0 8192 = .ok start := by
  rw [seekRead_ok (by decide) (by decide)]
  unfold farVolume
  rw [slice_append_left _ _ _ _ (by rw [start_length]; omega), slice_all (by rw [start_length]; omega)]

theorem far_read_control : seekRead farVolume 0x4000 0x4000 = .ok (control 256 ++ zeros 16000) := by
  rw [seekRead_ok (by decide) (by decide)]
  unfold farVolume
  rw [slice_append_right _ _ _ _ (by rw [start_length]; omega), slice_append_right _ _ _ _ (by rw [zeros_length, start_length]; omega),
    start_length, zeros_length, slice_append_left _ _ _ _ (by rw [control_block_length]; omega)]
  exact congrArg Except.ok (slice_all (j := 0x4000) (Nat.le_of_eq control_block_length))

theorem far_read_table : seekRead farVolume 0x8000 0x4000 = .ok (farTable ++ zeros 16224) := by
  rw [seekRead_ok (by decide) (by decide)]
  unfold farVolume
  rw [slice_append_right _ _ _ _ (by rw [start_length]; omega), slice_append_right _ _ _ _ (by rw [zeros_length, start_length]; omega),
    start_length, zeros_length, slice_append_right _ _ _ _ (by rw [control_block_length]; omega), control_block_length]
  exact congrArg Except.ok (slice_all (j := 0x4000) (Nat.le_of_eq farTable_block_length))

theorem far_entries : diffAreaEntries (farTable ++ zeros 16224) = .ok [⟨0, 0, 2 ^ 63, 0, 0⟩] := by
  have hl := farTable_block_length
  have h1 : entryOf (slice (farTable ++ zeros 16224) 0x80 (0x80 + 32)) = ⟨0, 0, 2 ^ 63, 0, 0⟩ := by
    rw [slice_append_left _ _ _ _ (by rw [farTable_length]; omega)]
    decide +kernel
  have h2 : entryOf (slice (farTable ++ zeros 16224) (0x80 + 32) (0x80 + 32 + 32)) = ⟨0, 0, 0, 0, 0⟩ := by
    rw [slice_append_right _ _ _ _ (by rw [farTable_length]; omega), farTable_length]
    decide +kernel
  unfold diffAreaEntries
  rw [diffAreaLoop, if_pos (by omega), h1]
  dsimp only
  rw [if_neg (by decide), if_neg (by decide), if_neg (by decide), diffAreaLoop, if_pos (by omega), h2]
  dsimp only
  rw [if_neg (by decide), if_neg (by decide), if_pos (by decide)]
  rfl

theorem far_select : select farImage 2 (.position 1) = some (.ok [farStore]) := by
  refine select_single farVolume (control 256 ++ zeros 16000) item2 item3 farStore 0 ?_ (items_control _ (by decide +kernel)) (by decide +kernel)
    (by decide +kernel) ?_
  · refine open_single farVolume start 2 _ far_read_start (by decide +kernel) (by decide +kernel) (by decide +kernel) ?_
    refine chain_single farVolume .control (fun b => .ok b) 1 0x4000 _ _ (by decide) far_read_control ?_ ?_ ?_ rfl
    · exact block_head .control (control 256) (zeros 16000) control_block_length (by rw [control_length]; omega)
        (by decide +kernel) (by decide +kernel) (by decide +kernel)
    · exact (u64_head _ _ _ (by rw [control_length]; omega)).trans (by decide +kernel)
    · exact (u64_head _ _ _ (by rw [control_length]; omega)).trans (by decide +kernel)
  · refine readStore_single farVolume item2 item3 2 0x8000 ⟨0, 0, 2 ^ 63, 0, 0⟩ (by decide +kernel) (by decide +kernel) (by decide +kernel)
      (by decide +kernel) (by decide +kernel) (by decide +kernel) (by decide +kernel) ?_ rfl (by decide +kernel)
    refine chain_single farVolume .diffArea diffAreaEntries 1 0x8000 _ _ (by decide) far_read_table ?_ ?_ ?_ far_entries
    · exact block_head .diffArea farTable (zeros 16224) farTable_block_length (by rw [farTable_length]; omega)
        (by decide +kernel) (by decide +kernel) (by decide +kernel)
    · exact (u64_head _ _ _ (by rw [farTable_length]; omega)).trans (by decide +kernel)
    · exact (u64_head _ _ _ (by rw [farTable_length]; omega)).trans (by decide +kernel)

/-- C127: there is a shadow copy that is selected and cannot be read: its only block was copied to 2^63. -/
theorem C127_read_overflow : ∃ (img : Image) (fuel : Nat) (key : Key) (stores : List Store), select img fuel key = some (.ok stores) ∧
    (ShadowCopy.read img stores 0 (some 1)).1 = .error .OverflowError := by
  refine ⟨farImage, 2, .position 1, _, far_select, ?_⟩
  unfold ShadowCopy.read readBlock
  dsimp only
  rw [if_neg (by decide), show translate farImage.volumeSize [farStore] (0 / 0x4000 * 0x4000) false false = .ok (blockSources (2 ^ 63)) by decide +kernel]
  dsimp only
  rw [show blockSources (2 ^ 63) = .store (2 ^ 63) :: ((List.range' 1 31).map fun i => .store (2 ^ 63 + i * 512)) by decide +kernel, readSources,
    show readSource farImage (.store (2 ^ 63)) = .error .OverflowError by unfold readSource seekRead; dsimp only; rw [if_pos (by decide)]]

end Verif.Props
