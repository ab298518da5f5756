/-
C71: lookups in the allocation bitmap.  C74: time zones, and the rest of the timestamps.
-/
import Verif.Props.C67
import Verif.Props.C68
namespace Verif.Props.ExFAT
open Verif.ExFAT

/-- C71: for a number that is not the one of a cluster, the answer is `None`; for the others it is the bit with the
number `cluster - 2` of the bitmap (bit 0 is the lowest one of the first byte). -/
theorem C71_bit (b : Bitmap) (cluster : Nat) (h : (cluster - 2) / 8 < b.buf.length) :
    b.isAllocated cluster =
      .ok (if cluster < 2 ∨ b.lastValidCluster < cluster then none else some ((leNat b.buf).testBit (cluster - 2))) := by
  unfold Bitmap.isAllocated
  by_cases h1 : cluster < 2
  · rw [if_pos h1, if_pos (Or.inl h1)]
  · rw [if_neg h1]
    by_cases h2 : cluster > b.lastValidCluster
    · rw [if_pos h2, if_pos (Or.inr h2)]
    · rw [if_neg h2, if_neg (by omega)]
      unfold index
      rw [List.getElem?_eq_getElem h]
      dsimp only
      congr 2
      have hbyte : (b.buf[(cluster - 2) / 8]).toNat = leNat b.buf / 2 ^ (8 * ((cluster - 2) / 8)) % 2 ^ 8 := by
        have := leNat_slice (b := b.buf) (i := (cluster - 2) / 8) (j := (cluster - 2) / 8 + 1) (by omega) h
        rw [Nat.add_sub_cancel_left, pow256, pow256] at this
        rw [← this]
        have hs : slice b.buf ((cluster - 2) / 8) ((cluster - 2) / 8 + 1) = [b.buf[(cluster - 2) / 8]] := by
          apply List.ext_getElem?
          intro k
          rw [slice_getElem?]
          by_cases hk : k = 0
          · subst hk; rw [if_pos (by omega), Nat.add_zero, List.getElem?_eq_getElem h]; rfl
          · rw [if_neg (by omega), List.getElem?_eq_none (by simp; omega)]
        rw [hs]
        simp [leNat]
      rw [hbyte, show (1 : Nat) = 2 ^ 1 - 1 from rfl, and_mask, Nat.shiftRight_eq_div_pow, Nat.testBit_eq_decide_div_mod_eq]
      have hr : (cluster - 2) % 8 < 8 := Nat.mod_lt _ (by decide)
      have hsplit : 2 ^ (cluster - 2) = 2 ^ (8 * ((cluster - 2) / 8)) * 2 ^ ((cluster - 2) % 8) := by rw [← Nat.pow_add, Nat.div_add_mod]
      rw [hsplit, ← Nat.div_div_eq_div_mul]
      generalize leNat b.buf / 2 ^ (8 * ((cluster - 2) / 8)) = x
      have h8 : (2 : Nat) ^ 8 = 2 ^ ((cluster - 2) % 8) * 2 ^ (8 - (cluster - 2) % 8) := by rw [← Nat.pow_add]; congr 1; omega
      rw [h8, Nat.mod_mul_right_div_self, Nat.mod_mod_of_dvd _ (Nat.pow_dvd_pow 2 (by omega))]
      have : x / 2 ^ ((cluster - 2) % 8) % 2 ^ 1 < 2 := Nat.mod_lt _ (by decide)
      rw [decide_eq_decide]
      omega

/-- C71: `None` exactly for the reserved numbers and the ones past the last cluster, whatever the bitmap. -/
theorem C71_none (b : Bitmap) (cluster : Nat) : b.isAllocated cluster = .ok none ↔ cluster < 2 ∨ b.lastValidCluster < cluster := by
  unfold Bitmap.isAllocated
  by_cases h1 : cluster < 2
  · rw [if_pos h1]; exact ⟨fun _ => Or.inl h1, fun _ => rfl⟩
  · rw [if_neg h1]
    by_cases h2 : cluster > b.lastValidCluster
    · rw [if_pos h2]; exact ⟨fun _ => Or.inr h2, fun _ => rfl⟩
    · rw [if_neg h2]
      cases index b.buf ((cluster - 2) / 8) with
      | error e => exact ⟨(fun h => by cases h), fun h => by omega⟩
      | ok v => exact ⟨(fun h => by cases h), fun h => by omega⟩

/-- A bitmap that is too short is an IndexError for the clusters past its end. -/
theorem C71_short (b : Bitmap) (cluster : Nat) (h2 : 2 ≤ cluster) (hl : cluster ≤ b.lastValidCluster) :
    b.isAllocated cluster = .error .IndexError ↔ b.buf.length ≤ (cluster - 2) / 8 := by
  constructor
  · intro h
    apply Classical.byContradiction
    intro hn
    rw [C71_bit b cluster (by omega)] at h
    cases h
  · intro h
    unfold Bitmap.isAllocated index
    rw [if_neg (by omega), if_neg (by omega), List.getElem?_eq_none h]

/-- The bitmap of an opened volume has the clusters of the volume. -/
theorem C71_opened (object : Bytes) (offset : Nat) (size : Option Nat) (v : Volume) (h : openVolume object offset size = .ok v) :
    v.bitmap.lastValidCluster = v.lastValidCluster := by
  obtain ⟨_, _, h3⟩ := C67_reported object offset size v h
  unfold findBitmap at h3
  obtain ⟨buf, _, h4⟩ := bind_ok.mp h3
  obtain ⟨_, _, h5⟩ := bind_ok.mp h4
  split at h5
  · obtain ⟨bm, _, h6⟩ := bind_ok.mp h5
    rw [← Except.ok.inj h6]
  · split at h5 <;> cases h5

def sampleBitmap : Bitmap := ⟨[0b00000101, 0b10000000], 15⟩

example : sampleBitmap.isAllocated 2 = .ok (some true) ∧ sampleBitmap.isAllocated 3 = .ok (some false) ∧ sampleBitmap.isAllocated 4 = .ok (some true) ∧
    sampleBitmap.isAllocated 15 = .ok (some false) ∧ sampleBitmap.isAllocated 16 = .ok none ∧ sampleBitmap.isAllocated 1 = .ok none := by
  refine ⟨?_, ?_, ?_, ?_, ?_, ?_⟩ <;> decide +kernel

/-- C74: a time zone is the signed number of seven bits, when the highest bit is set. -/
theorem C74_time_zone (value : Nat) (h : value < 256) :
    decodeFATTimezone value = if value < 128 then none else some (if value - 128 < 64 then (value : Int) - 128 else (value : Int) - 256) := by
  have : ∀ v, v < 256 → decodeFATTimezone v = if v < 128 then none else some (if v - 128 < 64 then (v : Int) - 128 else (v : Int) - 256) := by decide +kernel
  exact this value h

example : decodeFATTimezone 0x84 = some 4 ∧ decodeFATTimezone 0xFC = some (-4) ∧ decodeFATTimezone 0x04 = none := by decide

end Verif.Props.ExFAT
