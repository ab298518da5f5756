import Verif.Model.UpdateSequence
import Verif.Spec.UpdateSequence
import Verif.Spec.FileRecordSegment
import Verif.Proof.FileRecordSegment
namespace Verif
open Verif.Spec

theorem slice_set2 {b : Bytes} {o i j : Nat} {x y : UInt8} (h : o + 1 < i ∨ j ≤ o) :
    slice ((b.set o x).set (o + 1) y) i j = slice b i j := by
  rw [slice_set_of_outside (by omega), slice_set_of_outside (by omega)]

/-- The loop never raises when the array lies in the buffer. -/
theorem usaLoop_no_error (usn : Bytes) (off size i : Nat) (data : Bytes) (hi : 1 ≤ i)
    (hlen : (size - 1) * 512 = data.length) (hoff : off + size * 2 ≤ data.length) :
    ∃ r, usaLoop usn off size i data = .ok r := by
  fun_induction usaLoop usn off size i data with
  | case1 => exact ⟨_, rfl⟩
  | case2 i data hlt ub o sb hs b0 b1 hub hl ih =>
    exact ih (by omega) (by simpa using hlen) (by simpa using hoff)
  | case3 i data hlt ub o sb hs b0 b1 hub hl =>
    exfalso; omega
  | case4 i data hlt ub o sb hs hne =>
    exfalso
    have : ub = [data[off + i * 2], data[off + i * 2 + 1]] := slice_two_of_lt (by omega)
    exact hne _ _ this
  | case5 => exact ⟨_, rfl⟩

/-- A mismatch is found exactly when a sector is torn. -/
theorem usaLoop_none (usn : Bytes) (off size i : Nat) (data : Bytes) (hi : 1 ≤ i)
    (hlen : (size - 1) * 512 = data.length) (hoff : off + size * 2 ≤ data.length) :
    usaLoop usn off size i data = .ok none ↔ ∃ j, i ≤ j ∧ j < size ∧ slice data (j * 512 - 2) (j * 512) ≠ usn := by
  fun_induction usaLoop usn off size i data with
  | case1 i data hlt o sb hs =>
    refine ⟨fun _ => ⟨i, Nat.le_refl _, hlt, ?_⟩, fun _ => rfl⟩
    intro hh
    apply hs
    show usn = slice data (i * 512 - 2) (i * 512 - 2 + 2)
    rw [MFT.sub_add_512 hi, hh]
  | case2 i data hlt ub o sb hs b0 b1 hub hl ih =>
    rw [ih (by omega) (by simpa using hlen) (by simpa using hoff)]
    have hs : usn = slice data (i * 512 - 2) (i * 512 - 2 + 2) := Decidable.of_not_not hs
    have same : ∀ j, i + 1 ≤ j → slice ((data.set o b0).set (o + 1) b1) (j * 512 - 2) (j * 512) = slice data (j * 512 - 2) (j * 512) := by
      intro j hj
      apply slice_set2
      left; show i * 512 - 2 + 1 < _; omega
    constructor
    · rintro ⟨j, h1, h2, h3⟩
      rw [same j h1] at h3
      exact ⟨j, by omega, h2, h3⟩
    · rintro ⟨j, h1, h2, h3⟩
      have : j ≠ i := by
        rintro rfl
        rw [MFT.sub_add_512 hi] at hs
        exact h3 hs.symm
      exact ⟨j, by omega, h2, by rwa [same j (by omega)]⟩
  | case3 i data hlt ub o sb hs b0 b1 hub hl =>
    exfalso; omega
  | case4 i data hlt ub o sb hs hne =>
    exfalso
    have : ub = [data[off + i * 2], data[off + i * 2 + 1]] := slice_two_of_lt (by omega)
    exact hne _ _ this
  | case5 i data hlt =>
    constructor
    · intro h; cases h
    · rintro ⟨j, h1, h2, -⟩; omega

/-- The result of the loop. -/
theorem usaLoop_some (usn : Bytes) (off size i : Nat) (data : Bytes) (hi : 1 ≤ i) (d : Bytes)
    (h : usaLoop usn off size i data = .ok (some d)) (hlen : (size - 1) * 512 = data.length) :
    d.length = data.length ∧ (∀ p, p % 512 < 510 → d[p]? = data[p]?) ∧
    (off + 2 * size ≤ 510 → ∀ p, p < data.length → d[p]? =
      if 510 ≤ p % 512 ∧ i ≤ p / 512 + 1 then data[off + 2 * (p / 512 + 1) + (p % 512 - 510)]? else data[p]?) := by
  fun_induction usaLoop usn off size i data with
  | case1 => cases h
  | case2 i data hlt ub o sb hs b0 b1 hub hl ih =>
    obtain ⟨h1, h2, h3⟩ := ih (by omega) h (by simpa using hlen)
    have ho : o = i * 512 - 2 := rfl
    have hd : ∀ p, ((data.set o b0).set (o + 1) b1)[p]? = if p = o then some b0 else if p = o + 1 then some b1 else data[p]? :=
      fun p => MFT.set2_getElem? data o b0 b1 hl p
    have hu := slice_two hub
    refine ⟨by simpa using h1, ?_, ?_⟩
    · intro p hp
      rw [h2 p hp, hd, if_neg (by omega), if_neg (by omega)]
    · intro hoff p hp
      rw [h3 hoff p (by simpa using hp)]
      by_cases hp1 : 510 ≤ p % 512
      · by_cases hp2 : i + 1 ≤ p / 512 + 1
        · rw [if_pos ⟨hp1, hp2⟩, if_pos ⟨hp1, by omega⟩, hd, if_neg (by omega), if_neg (by omega)]
        · rw [if_neg (by omega), hd]
          by_cases hp3 : p / 512 + 1 = i
          · rw [if_pos (c := 510 ≤ p % 512 ∧ i ≤ p / 512 + 1) ⟨hp1, by omega⟩, hp3]
            by_cases hp4 : p = o
            · rw [if_pos hp4, show off + 2 * i + (p % 512 - 510) = off + i * 2 by omega]; exact hu.1.symm
            · rw [if_neg hp4, if_pos (by omega), show off + 2 * i + (p % 512 - 510) = off + i * 2 + 1 by omega]
              exact hu.2.symm
          · rw [if_neg (by omega), if_neg (by omega), if_neg (by omega)]
      · rw [if_neg (by omega), hd, if_neg (by omega), if_neg (by omega), if_neg (by omega)]
  | case3 => cases h
  | case4 => cases h
  | case5 i data hlt =>
    cases h
    refine ⟨rfl, fun _ _ => rfl, ?_⟩
    intro _ p hp
    rw [if_neg (by omega)]

/-- The whole loop, in the words of the specification. -/
theorem usaLoop_torn_iff {b : Bytes} {low : Nat} (hs : USA.SaneArray b low) :
    usaLoop (slice b (USA.offset b) (USA.offset b + 2)) (USA.offset b) (USA.count b) 1 b = .ok none ↔
      ∃ k, k < b.length / 512 ∧ USA.Torn b k := by
  obtain ⟨⟨a1, a2⟩, ⟨a3, a4⟩, a5, a6⟩ := hs
  rw [usaLoop_none _ _ _ _ _ (Nat.le_refl 1) (by rw [a5]; omega) (by omega)]
  constructor
  · rintro ⟨j, h1, h2, h3⟩
    refine ⟨j - 1, by omega, ?_⟩
    unfold USA.Torn
    rw [show 512 * (j - 1) + 510 = j * 512 - 2 by omega, show 512 * (j - 1) + 512 = j * 512 by omega]
    exact h3
  · rintro ⟨k, h1, h2⟩
    refine ⟨k + 1, by omega, by omega, ?_⟩
    rw [show (k + 1) * 512 - 2 = 512 * k + 510 by omega, show (k + 1) * 512 = 512 * k + 512 by omega]
    exact h2

theorem usaLoop_restored {b d : Bytes} {low : Nat} (hs : USA.SaneArray b low)
    (h : usaLoop (slice b (USA.offset b) (USA.offset b + 2)) (USA.offset b) (USA.count b) 1 b = .ok (some d)) :
    d.length = b.length ∧ (∀ p, p % 512 < 510 → d[p]? = b[p]?) ∧
    (USA.offset b + 2 * USA.count b ≤ 510 → USA.Restored b d) := by
  obtain ⟨⟨a1, a2⟩, ⟨a3, a4⟩, a5, a6⟩ := hs
  obtain ⟨h1, h2, h3⟩ := usaLoop_some _ _ _ _ _ (Nat.le_refl 1) _ h (by rw [a5]; omega)
  refine ⟨h1, h2, fun ho => ⟨h1, fun p hp => ?_⟩⟩
  rw [h3 ho p hp]
  by_cases hp : 510 ≤ p % 512
  · rw [if_pos ⟨hp, by omega⟩, if_pos hp]
  · rw [if_neg (by omega), if_neg hp]

theorem usaLoop_total {b : Bytes} {low : Nat} (hs : USA.SaneArray b low) :
    ∃ r, usaLoop (slice b (USA.offset b) (USA.offset b + 2)) (USA.offset b) (USA.count b) 1 b = .ok r := by
  obtain ⟨⟨a1, a2⟩, ⟨a3, a4⟩, a5, a6⟩ := hs
  exact usaLoop_no_error _ _ _ _ _ (Nat.le_refl 1) (by rw [a5]; omega) (by omega)

/-! ### The writer -/

theorem protect_get (orig : Bytes) (off : Nat) (x y : UInt8) (p : Nat) (hp : p < orig.length) :
    (FRS.protect orig off x y)[p]? = some (
      if p = off then x
      else if p = off + 1 then y
      else if off + 2 ≤ p ∧ p < off + 2 + 2 * (orig.length / 512) then
        orig.getD (512 * ((p - off - 2) / 2) + 510 + (p - off) % 2) 0
      else if p % 512 = 510 then x
      else if p % 512 = 511 then y
      else orig.getD p 0) := by
  simp [FRS.protect, hp]

theorem protect_len (orig : Bytes) (off : Nat) (x y : UInt8) : (FRS.protect orig off x y).length = orig.length := by
  simp [FRS.protect]

theorem protect_slice (orig : Bytes) (off : Nat) (x y : UInt8) (i j : Nat) (hj : j ≤ off) (hj' : j ≤ 510)
    (hl : 512 ≤ orig.length) : slice (FRS.protect orig off x y) i j = slice orig i j := by
  apply slice_congr
  intro p _ hp
  rw [protect_get _ _ _ _ _ (by omega), if_neg (by omega), if_neg (by omega), if_neg (by omega), if_neg (by omega),
    if_neg (by omega)]
  rw [List.getD_eq_getElem?_getD, List.getElem?_eq_getElem (by omega)]; rfl

/-- Everything about a protected record: its array is sane, no sector is torn, and restoring it gives
back the original bytes outside of the array. -/
theorem protect_facts (orig : Bytes) (x y : UInt8) (low : Nat) (hlow : 8 ≤ low) (hs : USA.SaneArray orig low)
    (hu : USA.offset orig + 2 * USA.count orig ≤ 510) :
    let b := FRS.protect orig (USA.offset orig) x y
    USA.SaneArray b low ∧ USA.offset b = USA.offset orig ∧ USA.count b = USA.count orig ∧
    (∀ k, k < b.length / 512 → ¬ USA.Torn b k) ∧
    ∀ d, USA.Restored b d → d.length = orig.length ∧
      ∀ p, ¬ (USA.offset orig ≤ p ∧ p < USA.offset orig + 2 * USA.count orig) → d[p]? = orig[p]? := by
  obtain ⟨⟨a1, a2⟩, ⟨a3, a4⟩, a5, a6⟩ := hs
  dsimp only
  have e1 : USA.offset (FRS.protect orig (USA.offset orig) x y) = USA.offset orig := by
    show leNat _ = leNat _; rw [protect_slice _ _ _ _ _ _ (by omega) (by omega) (by omega)]
  have e2 : USA.count (FRS.protect orig (USA.offset orig) x y) = USA.count orig := by
    show leNat _ = leNat _; rw [protect_slice _ _ _ _ _ _ (by omega) (by omega) (by omega)]
  have husn : slice (FRS.protect orig (USA.offset orig) x y) (USA.offset orig) (USA.offset orig + 2) = [x, y] := by
    apply List.ext_getElem?
    intro n
    rw [slice_getElem?]
    match n with
    | 0 => rw [if_pos (by omega), protect_get _ _ _ _ _ (by omega), if_pos (by omega)]; rfl
    | 1 => rw [if_pos (by omega), protect_get _ _ _ _ _ (by omega), if_neg (by omega), if_pos (by omega)]; rfl
    | n + 2 => rw [if_neg (by omega)]; simp
  refine ⟨⟨⟨by rwa [protect_len], by rwa [protect_len]⟩, ⟨by rwa [e1], by rwa [e1]⟩, by rw [e2, protect_len]; exact a5,
    by rw [e1, e2, protect_len]; exact a6⟩, e1, e2, ?_, ?_⟩
  · intro k hk ht
    rw [protect_len] at hk
    apply ht
    rw [e1, husn]
    apply List.ext_getElem?
    intro n
    rw [slice_getElem?]
    match n with
    | 0 => rw [if_pos (by omega), protect_get _ _ _ _ _ (by omega), if_neg (by omega), if_neg (by omega),
            if_neg (by omega), if_pos (by omega)]; rfl
    | 1 => rw [if_pos (by omega), protect_get _ _ _ _ _ (by omega), if_neg (by omega), if_neg (by omega),
            if_neg (by omega), if_neg (by omega), if_pos (by omega)]; rfl
    | n + 2 => rw [if_neg (by omega)]; simp
  · rintro d ⟨hd1, hd2⟩
    rw [protect_len] at hd1 hd2
    refine ⟨hd1, ?_⟩
    intro p hp
    by_cases hpl : p < orig.length
    · rw [hd2 p hpl, e1]
      by_cases ht : 510 ≤ p % 512
      · rw [if_pos ht, protect_get _ _ _ _ _ (by omega), if_neg (by omega), if_neg (by omega), if_pos (by omega)]
        have e : 512 * ((USA.offset orig + 2 * (p / 512 + 1) + (p % 512 - 510) - USA.offset orig - 2) / 2) + 510 +
            (USA.offset orig + 2 * (p / 512 + 1) + (p % 512 - 510) - USA.offset orig) % 2 = p := by omega
        rw [e, List.getD_eq_getElem?_getD, List.getElem?_eq_getElem hpl]; rfl
      · rw [if_neg ht, protect_get _ _ _ _ _ hpl, if_neg (by omega), if_neg (by omega), if_neg (by omega), if_neg (by omega),
          if_neg (by omega)]
        rw [List.getD_eq_getElem?_getD, List.getElem?_eq_getElem hpl]; rfl
    · rw [List.getElem?_eq_none (by omega), List.getElem?_eq_none (by omega)]

end Verif
