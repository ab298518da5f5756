/-
Property C33: the protection of log pages.
-/
import Verif.Proof.UpdateSequence
namespace Verif.Props
open Verif.Spec

/-- A page protected by a checksum instead: the bytes of the array hold the CRC32 of the page with a
cleared array, and the mark `CRC4`. -/
def CrcProtected (b : Bytes) : Prop :=
  slice b (USA.offset b + 4) (USA.offset b + 8) = [0x43, 0x52, 0x43, 0x34] ∧
  leNat (slice b (USA.offset b) (USA.offset b + 4)) =
    crc32 (b.take (USA.offset b) ++ List.replicate (2 * USA.count b) 0 ++ b.drop (USA.offset b + 2 * USA.count b))
instance (b : Bytes) : Decidable (CrcProtected b) := inferInstanceAs (Decidable (_ ∧ _))

theorem unprotect_sane_iff (b : Bytes) : (¬ (b.length < 2 * 512 ∨ b.length % 512 ≠ 0) ∧ ¬ (u16 b 4 < 8 ∨ u16 b 4 > 512 - 6) ∧
    ¬ (u16 b 6 < 2 ∨ (u16 b 6 - 1) * 512 ≠ b.length) ∧ ¬ (u16 b 4 + u16 b 6 * 2 ≥ b.length)) ↔ USA.SaneArray b 8 := by
  have e4 : u16 b 4 = USA.offset b := rfl
  have e6 : u16 b 6 = USA.count b := rfl
  rw [e4, e6]
  constructor
  · rintro ⟨h1, h2, h3, h4⟩
    exact ⟨⟨by omega, by omega⟩, ⟨by omega, by omega⟩, by omega, by omega⟩
  · rintro ⟨⟨a1, a2⟩, ⟨a3, a4⟩, a5, a6⟩
    exact ⟨by omega, by omega, by omega, by omega⟩

theorem crcProtected_iff (b : Bytes) : (slice b (u16 b 4 + 4) (u16 b 4 + 8) = [0x43, 0x52, 0x43, 0x34] ∧
    u32 b (u16 b 4) = crc32 (zeroUsa b (u16 b 4) (u16 b 6))) ↔ CrcProtected b := by
  unfold CrcProtected zeroUsa zeros
  rw [Nat.mul_comm 2]
  rfl

theorem unprotect_of_sane {b : Bytes} (hs : USA.SaneArray b 8) : unprotectSectors b =
    if CrcProtected b then .ok (b, USA.offset b + 2 * USA.count b)
    else match usaLoop (slice b (USA.offset b) (USA.offset b + 2)) (USA.offset b) (USA.count b) 1 b with
      | .error e => .error e
      | .ok none => .error .UpdateSequenceArrayException
      | .ok (some d) => .ok (d, USA.offset b + 2 * USA.count b) := by
  obtain ⟨h1, h2, h3, h4⟩ := (unprotect_sane_iff b).2 hs
  unfold unprotectSectors
  rw [if_neg h1]
  dsimp only
  rw [if_neg h2, if_neg h3, if_neg h4]
  by_cases hc : CrcProtected b
  · rw [if_pos hc, if_pos ((crcProtected_iff b).2 hc), Nat.mul_comm]; rfl
  · rw [if_neg hc, if_neg (fun h => hc ((crcProtected_iff b).1 h)), Nat.mul_comm]; rfl

theorem unprotect_of_not_sane {b : Bytes} (hs : ¬ USA.SaneArray b 8) :
    unprotectSectors b = .error .UpdateSequenceArrayException := by
  unfold unprotectSectors
  by_cases h1 : b.length < 2 * 512 ∨ b.length % 512 ≠ 0
  · rw [if_pos h1]
  rw [if_neg h1]
  dsimp only
  by_cases h2 : u16 b 4 < 8 ∨ u16 b 4 > 512 - 6
  · rw [if_pos h2]
  rw [if_neg h2]
  by_cases h3 : u16 b 6 < 2 ∨ (u16 b 6 - 1) * 512 ≠ b.length
  · rw [if_pos h3]
  rw [if_neg h3]
  by_cases h4 : u16 b 4 + u16 b 6 * 2 ≥ b.length
  · rw [if_pos h4]
  exact absurd ((unprotect_sane_iff b).1 ⟨h1, h2, h3, h4⟩) hs

/-- C33: for every byte string, removing the protection of a log page either gives a page or raises
UpdateSequenceArrayException; it raises exactly when the update sequence array is not sane, or the
page is not protected by a valid checksum and a sector is torn. -/
theorem C33_rejected_iff (b : Bytes) :
    ((∃ e, unprotectSectors b = .error e) ↔ unprotectSectors b = .error .UpdateSequenceArrayException) ∧
    (unprotectSectors b = .error .UpdateSequenceArrayException ↔
      ¬ USA.SaneArray b 8 ∨ ¬ CrcProtected b ∧ ∃ k, k < b.length / 512 ∧ USA.Torn b k) := by
  by_cases hs : USA.SaneArray b 8
  · rw [unprotect_of_sane hs]
    by_cases hc : CrcProtected b
    · simp only [if_pos hc]
      refine ⟨⟨(fun ⟨e, h⟩ => by cases h), (fun h => by cases h)⟩, (fun h => by cases h), ?_⟩
      rintro (h | h)
      · exact absurd hs h
      · exact absurd hc h.1
    · simp only [if_neg hc]
      obtain ⟨r, hr⟩ := usaLoop_total hs
      have ht := usaLoop_torn_iff hs
      rw [hr] at ht ⊢
      cases r with
      | none => exact ⟨⟨fun _ => rfl, fun _ => ⟨_, rfl⟩⟩, fun _ => .inr ⟨hc, ht.1 rfl⟩, fun _ => rfl⟩
      | some d =>
        refine ⟨⟨(fun ⟨e, h⟩ => by cases h), (fun h => by cases h)⟩, (fun h => by cases h), ?_⟩
        rintro (h | h)
        · exact absurd hs h
        · have := ht.2 h.2; cases this
  · rw [unprotect_of_not_sane hs]
    exact ⟨⟨fun _ => rfl, fun _ => ⟨_, rfl⟩⟩, fun _ => .inl hs, fun _ => rfl⟩

/-- C33: what an accepted page is.  With a valid checksum: the page as it is.  Otherwise: the same
bytes outside of the last two bytes of each sector, and these two come from the array (if the array
does not itself cover them).  The second result is the end of the array. -/
theorem C33_restored (b d : Bytes) (e : Nat) (h : unprotectSectors b = .ok (d, e)) :
    USA.SaneArray b 8 ∧ e = USA.offset b + 2 * USA.count b ∧ d.length = b.length ∧
    (CrcProtected b → d = b) ∧
    (¬ CrcProtected b → (∀ k, k < b.length / 512 → ¬ USA.Torn b k) ∧ (∀ p, p % 512 < 510 → d[p]? = b[p]?) ∧
      (USA.offset b + 2 * USA.count b ≤ 510 → USA.Restored b d)) := by
  have hn : ¬ unprotectSectors b = .error .UpdateSequenceArrayException := by rw [h]; intro hc; cases hc
  rw [(C33_rejected_iff b).2] at hn
  have hs : USA.SaneArray b 8 := Classical.byContradiction fun hc => hn (.inl hc)
  rw [unprotect_of_sane hs] at h
  by_cases hc : CrcProtected b
  · rw [if_pos hc] at h
    cases h
    exact ⟨hs, rfl, rfl, fun _ => rfl, fun h => absurd hc h⟩
  · rw [if_neg hc] at h
    obtain ⟨r, hr⟩ := usaLoop_total hs
    rw [hr] at h
    cases r with
    | none => cases h
    | some d' =>
      cases h
      obtain ⟨r1, r2, r3⟩ := usaLoop_restored hs hr
      exact ⟨hs, rfl, r1, fun h => absurd h hc, fun _ => ⟨fun k hk ht => hn (.inr ⟨hc, k, hk, ht⟩), r2, r3⟩⟩

/-- C33: a page with a valid checksum is returned unchanged. -/
theorem C33_checksum (b : Bytes) (hs : USA.SaneArray b 8) (hc : CrcProtected b) :
    unprotectSectors b = .ok (b, USA.offset b + 2 * USA.count b) := by
  rw [unprotect_of_sane hs, if_pos hc]

/-- C33: writing a page with the protection and then removing it gives the page back (outside of the
array itself), unless the protected page happens to look like one with a valid checksum. -/
theorem C33_roundtrip (orig : Bytes) (x y : UInt8) (hs : USA.SaneArray orig 8)
    (hu : USA.offset orig + 2 * USA.count orig ≤ 510)
    (hcrc : ¬ CrcProtected (FRS.protect orig (USA.offset orig) x y)) :
    ∃ d, unprotectSectors (FRS.protect orig (USA.offset orig) x y) = .ok (d, USA.offset orig + 2 * USA.count orig) ∧
      d.length = orig.length ∧
      ∀ p, ¬ (USA.offset orig ≤ p ∧ p < USA.offset orig + 2 * USA.count orig) → d[p]? = orig[p]? := by
  have hfacts := protect_facts orig x y 8 (by omega) hs hu
  dsimp only at hfacts
  obtain ⟨f1, f2, f3, f4, f5⟩ := hfacts
  have h := C33_rejected_iff (FRS.protect orig (USA.offset orig) x y)
  cases hr : unprotectSectors (FRS.protect orig (USA.offset orig) x y) with
  | error e =>
    rcases h.2.1 (h.1.1 ⟨e, hr⟩) with h' | ⟨-, k, hk, ht⟩
    · exact absurd f1 h'
    · exact absurd ht (f4 k hk)
  | ok r =>
    obtain ⟨d, e⟩ := r
    obtain ⟨-, h2, -, -, h5⟩ := C33_restored _ _ _ hr
    obtain ⟨-, -, h8⟩ := h5 hcrc
    refine ⟨d, ?_, f5 d (h8 (by rw [f2, f3]; exact hu))⟩
    rw [h2, f2, f3]

/-- C33: a write that was interrupted between sectors is noticed: if the page on the disk has a
sector that ends with something else than the update sequence number, it is rejected. -/
theorem C33_torn (b : Bytes) (k : Nat) (hk : k < b.length / 512) (ht : USA.Torn b k) (hcrc : ¬ CrcProtected b) :
    unprotectSectors b = .error .UpdateSequenceArrayException :=
  (C33_rejected_iff b).2.2 (.inr ⟨hcrc, k, hk, ht⟩)

/-- C33 is not vacuous: a page of two sectors with each kind of protection. -/
def demoLogPage : Bytes := [0x52, 0x43, 0x52, 0x44] ++ natLE 2 40 ++ natLE 2 3 ++ zeros 502 ++ [7, 8] ++ List.replicate 510 9 ++ [5, 6]
example : USA.SaneArray demoLogPage 8 ∧ USA.offset demoLogPage + 2 * USA.count demoLogPage ≤ 510 ∧
    ¬ CrcProtected (FRS.protect demoLogPage (USA.offset demoLogPage) 1 2) :=
  ⟨⟨by decide +kernel, by decide +kernel, by decide +kernel, by decide +kernel⟩, by decide +kernel, by decide +kernel⟩

/-- Write a page with the checksum: `orig` with the first eight bytes of its array replaced. -/
def crcProtect (orig : Bytes) : Bytes :=
  orig.take (USA.offset orig) ++ (natLE 4 (crc32 (orig.take (USA.offset orig) ++ List.replicate (2 * USA.count orig) 0 ++
    orig.drop (USA.offset orig + 2 * USA.count orig))) ++ ([0x43, 0x52, 0x43, 0x34] ++ orig.drop (USA.offset orig + 8)))

/-- C33: a page written with the checksum (an array of at least four elements) is returned as it was
written. -/
theorem C33_checksum_roundtrip (orig : Bytes) (hs : USA.SaneArray orig 8) (hn : 4 ≤ USA.count orig) :
    unprotectSectors (crcProtect orig) = .ok (crcProtect orig, USA.offset orig + 2 * USA.count orig) := by
  obtain ⟨⟨a1, a2⟩, ⟨a3, a4⟩, a5, a6⟩ := hs
  have hlt : (orig.take (USA.offset orig)).length = USA.offset orig := by rw [List.length_take]; omega
  have hlen : (crcProtect orig).length = orig.length := by
    simp only [crcProtect, List.length_append, List.length_take, natLE_length, List.length_drop, List.length_cons, List.length_nil]
    omega
  have hpre : ∀ i j, j ≤ USA.offset orig → slice (crcProtect orig) i j = slice orig i j := by
    intro i j hj
    unfold crcProtect
    rw [slice_append_left _ _ _ _ (by omega), slice, slice, List.drop_take, List.take_take]
    congr 1; omega
  have e1 : USA.offset (crcProtect orig) = USA.offset orig := by
    show leNat _ = leNat _; rw [hpre _ _ (by omega)]
  have e2 : USA.count (crcProtect orig) = USA.count orig := by
    show leNat _ = leNat _; rw [hpre _ _ (by omega)]
  have hs' : USA.SaneArray (crcProtect orig) 8 :=
    ⟨by rw [hlen]; exact ⟨a1, a2⟩, by rw [e1]; exact ⟨a3, a4⟩, by rw [e2, hlen]; exact a5, by rw [e1, e2, hlen]; exact a6⟩
  have hc : CrcProtected (crcProtect orig) := by
    unfold CrcProtected
    rw [e1, e2]
    refine ⟨?_, ?_⟩
    · unfold crcProtect
      rw [slice_append_right _ _ _ _ (by omega), slice_append_right _ _ _ _ (by rw [natLE_length]; omega),
        slice_append_left _ _ _ _ (by rw [natLE_length]; show _ ≤ 4; omega), hlt, natLE_length,
        show USA.offset orig + 4 - USA.offset orig - 4 = 0 by omega, show USA.offset orig + 8 - USA.offset orig - 4 = 4 by omega]
      rfl
    · have ht : (crcProtect orig).take (USA.offset orig) = orig.take (USA.offset orig) := by
        have := hpre 0 _ (Nat.le_refl _)
        rwa [slice_zero, slice_zero] at this
      have hd : (crcProtect orig).drop (USA.offset orig + 2 * USA.count orig) = orig.drop (USA.offset orig + 2 * USA.count orig) := by
        unfold crcProtect
        rw [List.drop_append, hlt, List.drop_eq_nil_of_le (by omega), List.nil_append, List.drop_append, natLE_length,
          List.drop_eq_nil_of_le (by rw [natLE_length]; omega), List.nil_append, List.drop_append,
          List.drop_eq_nil_of_le (by show 4 ≤ _; omega), List.nil_append, List.drop_drop]
        congr 1
        show USA.offset orig + 8 + (_ - 4) = _
        omega
      rw [ht, hd]
      have hsl : slice (crcProtect orig) (USA.offset orig) (USA.offset orig + 4) = natLE 4 (crc32 (orig.take (USA.offset orig) ++
          List.replicate (2 * USA.count orig) 0 ++ orig.drop (USA.offset orig + 2 * USA.count orig))) := by
        unfold crcProtect
        rw [slice_append_right _ _ _ _ (by omega), slice_append_left _ _ _ _ (by rw [natLE_length]; omega), hlt, Nat.sub_self]
        rw [slice_all (by rw [natLE_length]; omega)]
      rw [hsl, leNat_natLE_of_lt (crc32_lt _)]
  rw [C33_checksum _ hs' hc, e1, e2]

/-- The hypotheses of `C33_checksum_roundtrip` are met. -/
def demoCrcPage : Bytes := [0x52, 0x43, 0x52, 0x44] ++ natLE 2 40 ++ natLE 2 4 ++ zeros 502 ++ List.replicate 1026 9
example : USA.SaneArray demoCrcPage 8 ∧ 4 ≤ USA.count demoCrcPage :=
  ⟨⟨by decide +kernel, by decide +kernel, by decide +kernel, by decide +kernel⟩, by decide +kernel⟩

end Verif.Props
