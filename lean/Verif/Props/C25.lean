/-
Property C25: the fixup of index buffers.
-/
import Verif.Model.Attributes
import Verif.Proof.UpdateSequence
namespace Verif.Props
open Verif.Attributes Verif.Spec

/-- The signature of an index buffer, after the fixup (it cannot be changed by it, see below). -/
def HasIndexSignature (b : Bytes) : Prop := slice b 0 4 = [0x49, 0x4E, 0x44, 0x58]
instance (b : Bytes) : Decidable (HasIndexSignature b) := inferInstanceAs (Decidable (_ = _))

theorem verify_sane_iff (b : Bytes) : (¬ (b.length < 2 * 512 ∨ b.length % 512 ≠ 0) ∧ ¬ (u16 b 4 < 40 ∨ u16 b 4 > 512 - 6) ∧
    ¬ (u16 b 6 < 2 ∨ (u16 b 6 - 1) * 512 ≠ b.length) ∧ ¬ (u16 b 4 + u16 b 6 * 2 ≥ b.length)) ↔ USA.SaneArray b 40 := by
  have e4 : u16 b 4 = USA.offset b := rfl
  have e6 : u16 b 6 = USA.count b := rfl
  rw [e4, e6]
  constructor
  · rintro ⟨h1, h2, h3, h4⟩
    exact ⟨⟨by omega, by omega⟩, ⟨by omega, by omega⟩, by omega, by omega⟩
  · rintro ⟨⟨a1, a2⟩, ⟨a3, a4⟩, a5, a6⟩
    exact ⟨by omega, by omega, by omega, by omega⟩

theorem verify_of_sane {b : Bytes} (hs : USA.SaneArray b 40) : verifyAndUnprotectIndexSectors b =
    match usaLoop (slice b (USA.offset b) (USA.offset b + 2)) (USA.offset b) (USA.count b) 1 b with
      | .error e => .error e
      | .ok none => .ok none
      | .ok (some d) => if slice d 0 4 ≠ [0x49, 0x4E, 0x44, 0x58] then .ok none else .ok (some d) := by
  obtain ⟨h1, h2, h3, h4⟩ := (verify_sane_iff b).2 hs
  unfold verifyAndUnprotectIndexSectors
  rw [if_neg h1]
  dsimp only
  rw [if_neg h2, if_neg h3, if_neg h4]
  rfl

theorem verify_of_not_sane {b : Bytes} (hs : ¬ USA.SaneArray b 40) : verifyAndUnprotectIndexSectors b = .ok none := by
  unfold verifyAndUnprotectIndexSectors
  by_cases h1 : b.length < 2 * 512 ∨ b.length % 512 ≠ 0
  · rw [if_pos h1]
  rw [if_neg h1]
  dsimp only
  by_cases h2 : u16 b 4 < 40 ∨ u16 b 4 > 512 - 6
  · rw [if_pos h2]
  rw [if_neg h2]
  by_cases h3 : u16 b 6 < 2 ∨ (u16 b 6 - 1) * 512 ≠ b.length
  · rw [if_pos h3]
  rw [if_neg h3]
  by_cases h4 : u16 b 4 + u16 b 6 * 2 ≥ b.length
  · rw [if_pos h4]
  exact absurd ((verify_sane_iff b).1 ⟨h1, h2, h3, h4⟩) hs

/-- The fixup does not touch the signature. -/
theorem signature_unchanged {b d : Bytes} (h : ∀ p, p % 512 < 510 → d[p]? = b[p]?) : slice d 0 4 = slice b 0 4 :=
  slice_congr fun p _ hp => h p (by omega)

/-- C25: for every byte string, the fixup of an index buffer raises nothing.  The buffer is rejected
(`none`) exactly when its update sequence array is not sane, a sector is torn, or the signature is
wrong. -/
theorem C25_rejected_iff (b : Bytes) : verifyAndUnprotectIndexSectors b = .ok none ↔
    ¬ USA.SaneArray b 40 ∨ (∃ k, k < b.length / 512 ∧ USA.Torn b k) ∨ ¬ HasIndexSignature b := by
  by_cases hs : USA.SaneArray b 40
  · rw [verify_of_sane hs]
    constructor
    · intro h
      by_cases ht : ∃ k, k < b.length / 512 ∧ USA.Torn b k
      · exact .inr (.inl ht)
      · have ht' := mt (usaLoop_torn_iff hs).1 ht
        obtain ⟨r, hr⟩ := usaLoop_total hs
        rw [hr] at h ht'
        cases r with
        | none => exact absurd rfl ht'
        | some d =>
          dsimp only at h
          obtain ⟨r1, r2, r3⟩ := usaLoop_restored hs hr
          rw [signature_unchanged r2] at h
          refine .inr (.inr fun hc => ?_)
          rw [if_neg (fun hne => hne hc)] at h
          cases h
    · rintro (h | h | h)
      · exact absurd hs h
      · rw [(usaLoop_torn_iff hs).2 h]
      · obtain ⟨r, hr⟩ := usaLoop_total hs
        rw [hr]
        cases r with
        | none => rfl
        | some d =>
          dsimp only
          obtain ⟨r1, r2, r3⟩ := usaLoop_restored hs hr
          rw [signature_unchanged r2]; exact if_pos h
  · rw [verify_of_not_sane hs]
    exact ⟨fun _ => .inl hs, fun _ => rfl⟩

theorem C25_total (b : Bytes) : ∃ r, verifyAndUnprotectIndexSectors b = .ok r := by
  by_cases hs : USA.SaneArray b 40
  · rw [verify_of_sane hs]
    obtain ⟨r, hr⟩ := usaLoop_total hs
    rw [hr]
    cases r with
    | none => exact ⟨_, rfl⟩
    | some d => dsimp only; split <;> exact ⟨_, rfl⟩
  · exact ⟨_, verify_of_not_sane hs⟩

/-- C25: an accepted buffer has the same length and the same bytes outside of the last two bytes of
each sector.  These two come from the array (if the array does not itself cover them). -/
theorem C25_restored (b d : Bytes) (h : verifyAndUnprotectIndexSectors b = .ok (some d)) :
    USA.SaneArray b 40 ∧ (∀ k, k < b.length / 512 → ¬ USA.Torn b k) ∧ HasIndexSignature b ∧
    d.length = b.length ∧ (∀ p, p % 512 < 510 → d[p]? = b[p]?) ∧
    (USA.offset b + 2 * USA.count b ≤ 510 → USA.Restored b d) := by
  have hn : ¬ verifyAndUnprotectIndexSectors b = .ok none := by rw [h]; intro hc; cases hc
  rw [C25_rejected_iff] at hn
  have hs : USA.SaneArray b 40 := Classical.byContradiction fun hc => hn (.inl hc)
  refine ⟨hs, fun k hk ht => hn (.inr (.inl ⟨k, hk, ht⟩)), Decidable.of_not_not fun hc => hn (.inr (.inr hc)), ?_⟩
  rw [verify_of_sane hs] at h
  obtain ⟨r, hr⟩ := usaLoop_total hs
  rw [hr] at h
  cases r with
  | none => cases h
  | some d' =>
    dsimp only at h
    split at h
    · cases h
    · cases h; exact usaLoop_restored hs hr

/-- C25: writing a buffer with the protection and then removing it gives the buffer back (outside of
the array itself). -/
theorem C25_roundtrip (orig : Bytes) (x y : UInt8) (hs : USA.SaneArray orig 40)
    (hu : USA.offset orig + 2 * USA.count orig ≤ 510) (hsig : HasIndexSignature orig) :
    ∃ d, verifyAndUnprotectIndexSectors (FRS.protect orig (USA.offset orig) x y) = .ok (some d) ∧ d.length = orig.length ∧
      ∀ p, ¬ (USA.offset orig ≤ p ∧ p < USA.offset orig + 2 * USA.count orig) → d[p]? = orig[p]? := by
  have hfacts := protect_facts orig x y 40 (by omega) hs hu
  dsimp only at hfacts
  obtain ⟨f1, f2, f3, f4, f5⟩ := hfacts
  obtain ⟨⟨a1, a2⟩, ⟨a3, a4⟩, a5, a6⟩ := hs
  have hsig' : HasIndexSignature (FRS.protect orig (USA.offset orig) x y) := by
    unfold HasIndexSignature at hsig ⊢
    rw [protect_slice _ _ _ _ _ _ (by omega) (by omega) (by omega)]; exact hsig
  obtain ⟨r, hr⟩ := C25_total (FRS.protect orig (USA.offset orig) x y)
  cases r with
  | none =>
    rcases (C25_rejected_iff _).1 hr with h | ⟨k, hk, ht⟩ | h
    · exact absurd f1 h
    · exact absurd ht (f4 k hk)
    · exact absurd hsig' h
  | some d =>
    obtain ⟨-, -, -, -, -, h6⟩ := C25_restored _ _ hr
    exact ⟨d, hr, f5 d (h6 (by rw [f2, f3]; exact hu))⟩

/-- C25 is not vacuous. -/
def demoIndexBuffer : Bytes := [0x49, 0x4E, 0x44, 0x58] ++ natLE 2 40 ++ natLE 2 9 ++ zeros 502 ++ [7, 8] ++ List.replicate 3584 9
example : USA.SaneArray demoIndexBuffer 40 ∧ USA.offset demoIndexBuffer + 2 * USA.count demoIndexBuffer ≤ 510 ∧
    HasIndexSignature demoIndexBuffer :=
  ⟨⟨by decide +kernel, by decide +kernel, by decide +kernel, by decide +kernel⟩, by decide +kernel, by decide +kernel⟩

/-- The `i`-th buffer of the allocation. -/
def bufferAt (file : Bytes) (size i : Nat) : Bytes := slice file (i * size) (i * size + size)

/-- A fixed-up buffer, if it is valid. -/
def fixedUp (b : Bytes) : Option Bytes :=
  match verifyAndUnprotectIndexSectors b with
  | .ok r => r
  | .error _ => none

theorem indexBuffersLoop_eq (file : Bytes) (size : Nat) (hs : 0 < size) : ∀ (n i : Nat), n = file.length / size - i → i ≤ file.length / size →
    indexBuffersLoop file size i = ⟨(List.range' i n).filterMap fun i => fixedUp (bufferAt file size i), none⟩
  | 0, i, hn, hi => by
    rw [indexBuffersLoop]
    rw [if_pos]
    · rfl
    · left
      have hi : i = file.length / size := by omega
      have := Nat.div_add_mod file.length size
      have := Nat.mod_lt file.length hs
      rw [slice_length, hi, Nat.mul_comm]
      omega
  | n + 1, i, hn, hi => by
    have hlt : (i + 1) * size ≤ file.length := by
      have h1 : i + 1 ≤ file.length / size := by omega
      exact Nat.le_trans (Nat.mul_le_mul_right _ h1) (Nat.div_mul_le_self _ _)
    rw [Nat.add_mul, Nat.one_mul] at hlt
    have ih := indexBuffersLoop_eq file size hs n (i + 1) (by omega) (by omega)
    rw [indexBuffersLoop]
    rw [if_neg (by rw [slice_length]; omega), List.range'_succ, List.filterMap_cons, ih]
    unfold fixedUp bufferAt
    obtain ⟨r, hr⟩ := C25_total (slice file (i * size) (i * size + size))
    rw [hr]
    cases r <;> rfl

/-- C25: the buffers of an index allocation: no exception; if the first buffer is valid and has a
plausible size (two sectors or more, at most 119808 bytes), these are exactly the valid ones among
the whole buffers of that size, in order, with the protection removed; otherwise there are none. -/
theorem C25_buffers (file : Bytes) :
    indexBuffers file = ⟨match indexBufferSize file with
      | .ok (some size) => (List.range (file.length / size)).filterMap fun i => fixedUp (bufferAt file size i)
      | _ => [], none⟩ ∧
    ∀ size, indexBufferSize file = .ok (some size) ↔
      (8 ≤ file.length ∧ size = (leNat (slice file 6 8) - 1) * 512 ∧ 1024 ≤ size ∧ size ≤ 119808 ∧ size ≤ file.length ∧
        (fixedUp (slice file 0 size)).isSome) := by
  have e : u16 (slice file 4 8) 2 = leNat (slice file 6 8) := by
    unfold u16; rw [slice_slice _ _ _ _ _ (by omega)]
  have key : ∀ size, indexBufferSize file = .ok (some size) ↔
      (8 ≤ file.length ∧ size = (leNat (slice file 6 8) - 1) * 512 ∧ 1024 ≤ size ∧ size ≤ 119808 ∧ size ≤ file.length ∧
        (fixedUp (slice file 0 size)).isSome) := by
    intro size
    unfold indexBufferSize
    dsimp only
    rw [e]
    by_cases c1 : (slice file 4 8).length ≠ 4
    · rw [if_pos c1]
      rw [slice_length] at c1
      refine ⟨(fun h => by cases h), fun h => by omega⟩
    rw [if_neg c1]
    rw [slice_length] at c1
    by_cases c2 : leNat (slice file 6 8) < 3
    · rw [if_pos c2]
      refine ⟨(fun h => by cases h), fun h => by omega⟩
    rw [if_neg c2]
    by_cases c3 : ¬ ((leNat (slice file 6 8) - 1) * 512 > 0 ∧ (leNat (slice file 6 8) - 1) * 512 % 512 = 0 ∧ (leNat (slice file 6 8) - 1) * 512 ≤ 119808)
    · rw [if_pos c3]
      refine ⟨(fun h => by cases h), fun h => by omega⟩
    rw [if_neg c3]
    by_cases c4 : (slice file 0 ((leNat (slice file 6 8) - 1) * 512)).length ≠ (leNat (slice file 6 8) - 1) * 512
    · rw [if_pos c4]
      rw [slice_length] at c4
      refine ⟨(fun h => by cases h), fun h => by omega⟩
    rw [if_neg c4]
    rw [slice_length] at c4
    obtain ⟨r, hr⟩ := C25_total (slice file 0 ((leNat (slice file 6 8) - 1) * 512))
    constructor
    · intro h
      rw [hr] at h
      cases r with
      | none => cases h
      | some d =>
        cases h
        refine ⟨by omega, rfl, by omega, by omega, by omega, ?_⟩
        unfold fixedUp; rw [hr]; rfl
    · rintro ⟨-, rfl, -, -, -, h⟩
      unfold fixedUp at h
      rw [hr] at h ⊢
      cases r with
      | none => cases h
      | some d => rfl
  refine ⟨?_, key⟩
  unfold indexBuffers
  have hne : ∀ e, indexBufferSize file ≠ .error e := by
    intro e h
    unfold indexBufferSize at h
    dsimp only at h
    split at h
    · cases h
    split at h
    · cases h
    split at h
    · cases h
    split at h
    · cases h
    obtain ⟨r, hr⟩ := C25_total (slice file 0 ((u16 (slice file 4 8) 2 - 1) * 512))
    rw [hr] at h
    cases r <;> cases h
  cases hb : indexBufferSize file with
  | error e => exact absurd hb (hne e)
  | ok r =>
    cases r with
    | none => rfl
    | some size =>
      dsimp only
      have := ((key size).1 hb).2.2.1
      rw [indexBuffersLoop_eq file size (by omega) (file.length / size) 0 (Nat.sub_zero _).symm (Nat.zero_le _), List.range_eq_range']

end Verif.Props
