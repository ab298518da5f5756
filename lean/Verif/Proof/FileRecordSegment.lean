import Verif.Model.MFT.FileRecordSegment
namespace Verif.MFT

theorem set2_getElem? (data : Bytes) (o : Nat) (b0 b1 : UInt8) (h : o + 1 < data.length) (p : Nat) :
    ((data.set o b0).set (o + 1) b1)[p]? =
      if p = o then some b0 else if p = o + 1 then some b1 else data[p]? := by
  simp only [List.getElem?_set, List.length_set]
  by_cases h1 : p = o
  · subst h1; simp; omega
  · by_cases h2 : p = o + 1
    · subst h2; simp; omega
    · rw [if_neg (by omega), if_neg (by omega), if_neg h1, if_neg h2]

theorem firstFree_set2 {data : Bytes} {o : Nat} {b0 b1 : UInt8} (h : 28 ≤ o) :
    firstFreeByteOffset ((data.set o b0).set (o + 1) b1) = firstFreeByteOffset data := by
  unfold firstFreeByteOffset u32
  rw [slice_set_of_outside (by omega), slice_set_of_outside (by omega)]

theorem sub_add_512 {i : Nat} (h : 1 ≤ i) : i * 512 - 2 + 2 = i * 512 := by omega

/-- Everything about a successful run of the fix-up loop. -/
theorem applyUsaLoop_ok (usn : Bytes) (off size i applied : Nat) (data : Bytes)
    (hi : applied + 1 = i) (d : Bytes) (n : Nat)
    (h : applyUsaLoop usn off size i applied data = .ok (d, n)) :
    applied ≤ n ∧ (i ≤ size → n + 1 ≤ size) ∧ d.length = data.length ∧
    (off + 2 * size ≤ 510 → ∀ p, d[p]? =
      if 510 ≤ p % 512 ∧ i ≤ p / 512 + 1 ∧ p / 512 + 1 ≤ n then data[off + 2 * (p / 512 + 1) + (p % 512 - 510)]?
      else data[p]?) ∧
    (firstFreeByteOffset data ≠ 0 → ∀ j, i ≤ j → j ≤ n → slice data (j * 512 - 2) (j * 512) = usn) ∧
    (∀ j, i ≤ j → j < size → (j - 1) * 512 < firstFreeByteOffset data → j ≤ n) ∧
    (∀ p, (p % 512 < 510 ∨ p / 512 + 1 < i) → d[p]? = data[p]?) ∧
    (n + 1 < size → slice data ((n + 1) * 512 - 2) ((n + 1) * 512) ≠ usn) := by
  fun_induction applyUsaLoop usn off size i applied data with
  | case1 => cases h
  | case2 i applied data hlt o sb h1 h2 =>
    cases h
    have hb : n + 1 < size → slice d ((n + 1) * 512 - 2) ((n + 1) * 512) ≠ usn := by
      intro _ hc
      have : usn ≠ slice d (i * 512 - 2) (i * 512 - 2 + 2) := h2.1
      rw [sub_add_512 (by omega), ← hi] at this
      exact this hc.symm
    refine ⟨by omega, by omega, rfl, ?_, ?_, ?_, fun _ _ => rfl, hb⟩
    · intro _ p; rw [if_neg (by omega)]
    · intro _ j hj1 hj2; omega
    · intro j hj1 hj2 hj3
      have h3 : ¬ n * 512 < firstFreeByteOffset d := fun hc => h1 ⟨h2.1, hc⟩
      have : (i - 1) * 512 ≤ (j - 1) * 512 := Nat.mul_le_mul_right _ (by omega)
      have : i - 1 = n := by omega
      subst this
      omega
  | case3 i applied data hlt ub o sb h1 h2 b0 b1 hub hlen ih =>
    have ho : 28 ≤ o := by
      show 28 ≤ i * updateSequenceStride - 2
      simp only [updateSequenceStride]; omega
    have ho' : o = i * 512 - 2 := rfl
    obtain ⟨c1, c2, c3, c4, c5, c6, c7, c8⟩ := ih (by omega) h
    rw [firstFree_set2 ho] at c5 c6
    refine ⟨by omega, fun _ => c2 (by omega), by simpa using c3, ?_, ?_, ?_, ?_, ?_⟩
    · intro hov p
      rw [c4 hov p]
      have hs := slice_two hub
      by_cases hp : 510 ≤ p % 512 ∧ i + 1 ≤ p / 512 + 1 ∧ p / 512 + 1 ≤ n
      · rw [if_pos hp, if_pos (by omega), set2_getElem? _ _ _ _ hlen, if_neg (by omega), if_neg (by omega)]
      · rw [if_neg hp, set2_getElem? _ _ _ _ hlen]
        by_cases hp0 : p = o
        · rw [if_pos hp0, if_pos (by omega)]
          have e : off + 2 * (p / 512 + 1) + (p % 512 - 510) = off + i * 2 := by omega
          rw [← hs.1, e]
        · rw [if_neg hp0]
          by_cases hp1 : p = o + 1
          · rw [if_pos hp1, if_pos (by omega)]
            have e : off + 2 * (p / 512 + 1) + (p % 512 - 510) = off + i * 2 + 1 := by omega
            rw [← hs.2, e]
          · rw [if_neg hp1, if_neg (by omega)]
    · intro hff j hj1 hj2
      by_cases hji : j = i
      · subst hji
        have hsb : usn = sb := by
          apply Decidable.byContradiction
          intro hc
          by_cases ha : applied > 0
          · exact h2 ⟨hc, ha⟩
          · apply h1; refine ⟨hc, ?_⟩
            have : applied = 0 := by omega
            rw [this]; omega
        have he : j * 512 = o + 2 := by omega
        rw [hsb, he]; show slice data (o + 2 - 2) (o + 2) = slice data o (o + 2)
        rw [Nat.add_sub_cancel]
      · have := c5 hff j (by omega) hj2
        rw [slice_set_of_outside (by omega), slice_set_of_outside (by omega)] at this
        exact this
    · intro j hj1 hj2 hj3
      by_cases hji : j = i
      · omega
      · exact c6 j (by omega) hj2 hj3
    · intro p hp
      rw [c7 p (by omega), set2_getElem? _ _ _ _ hlen, if_neg (by omega), if_neg (by omega)]
    · intro hn hc
      apply c8 hn
      rw [slice_set_of_outside (by omega), slice_set_of_outside (by omega)]
      exact hc
  | case4 => cases h
  | case5 => cases h
  | case6 i applied data hge =>
    cases h
    refine ⟨by omega, by omega, rfl, ?_, ?_, ?_, fun _ _ => rfl, by omega⟩
    · intro _ p; rw [if_neg (by omega)]
    · intro _ j hj1 hj2; omega
    · intro j hj1 hj2; omega

/-- The loop cannot fail when every sector of the used part carries the update sequence number
(and nothing is out of bounds). -/
theorem applyUsaLoop_total (usn : Bytes) (off size i applied : Nat) (data : Bytes)
    (hi : applied + 1 = i) (hlen : (size - 1) * 512 = data.length) (hoff : off + size * 2 ≤ data.length)
    (hgood : ∀ j, i ≤ j → j < size → (j - 1) * 512 < firstFreeByteOffset data →
      slice data (j * 512 - 2) (j * 512) = usn) :
    ∃ d n, applyUsaLoop usn off size i applied data = .ok (d, n) := by
  fun_induction applyUsaLoop usn off size i applied data with
  | case1 i applied data hlt o sb h1 =>
    exfalso
    apply h1.1
    have h2 : applied * 512 < firstFreeByteOffset data := h1.2
    have h3 : i - 1 = applied := by omega
    have := hgood i (by omega) hlt (h3 ▸ h2)
    have hi1 : 1 ≤ i := hi ▸ Nat.le_add_left _ _
    show usn = slice data (i * 512 - 2) (i * 512 - 2 + 2)
    rw [sub_add_512 hi1]
    exact this.symm
  | case2 i applied data => exact ⟨_, _, rfl⟩
  | case3 i applied data hlt ub o sb h1 h2 b0 b1 hub hl ih =>
    have ho : 28 ≤ o := by
      show 28 ≤ i * updateSequenceStride - 2
      simp only [updateSequenceStride]; omega
    have ho' : o = i * 512 - 2 := rfl
    apply ih (by omega) (by simpa using hlen) (by simpa using hoff)
    intro j hj1 hj2 hj3
    rw [firstFree_set2 ho] at hj3
    rw [slice_set_of_outside (by omega), slice_set_of_outside (by omega)]
    exact hgood j (by omega) hj2 hj3
  | case4 i applied data hlt ub o sb h1 h2 b0 b1 hub hl =>
    exfalso
    have ho' : o = i * 512 - 2 := rfl
    have : i * 512 ≤ (size - 1) * 512 := Nat.mul_le_mul_right _ (by omega)
    omega
  | case5 i applied data hlt ub o sb h1 h2 hub =>
    exfalso
    have hx : off + i * 2 + 1 < data.length := by omega
    exact hub _ _ (slice_two_of_lt hx)
  | case6 => exact ⟨_, _, rfl⟩

/-- A torn used sector makes the loop fail. -/
theorem applyUsaLoop_torn (usn : Bytes) (off size i applied : Nat) (data : Bytes)
    (hi : applied + 1 = i) (j : Nat) (hj1 : i ≤ j) (hj2 : j < size)
    (hj3 : (j - 1) * 512 < firstFreeByteOffset data) (ht : slice data (j * 512 - 2) (j * 512) ≠ usn)
    (d : Bytes) (n : Nat) : applyUsaLoop usn off size i applied data ≠ .ok (d, n) := by
  intro h
  obtain ⟨_, _, _, _, c5, c6, _, _⟩ := applyUsaLoop_ok usn off size i applied data hi d n h
  exact ht (c5 (by omega) j hj1 (c6 j hj1 hj2 hj3))

/-- All failures of the loop are `FileRecordSegmentException` when nothing is out of bounds. -/
theorem applyUsaLoop_error (usn : Bytes) (off size i applied : Nat) (data : Bytes)
    (hi : applied + 1 = i) (hlen : (size - 1) * 512 = data.length) (hoff : off + size * 2 ≤ data.length)
    (e : Exc) (h : applyUsaLoop usn off size i applied data = .error e) : e = .FileRecordSegmentException := by
  fun_induction applyUsaLoop usn off size i applied data with
  | case1 => cases h; rfl
  | case2 => cases h
  | case3 i applied data hlt ub o sb h1 h2 b0 b1 hub hl ih =>
    exact ih (by omega) (by simpa using hlen) (by simpa using hoff) h
  | case4 i applied data hlt ub o sb h1 h2 b0 b1 hub hl =>
    exfalso
    have ho' : o = i * 512 - 2 := rfl
    have : i * 512 ≤ (size - 1) * 512 := Nat.mul_le_mul_right _ (by omega)
    omega
  | case5 i applied data hlt ub o sb h1 h2 hub =>
    exfalso
    have hx : off + i * 2 + 1 < data.length := by omega
    exact hub _ _ (slice_two_of_lt hx)
  | case6 => cases h

end Verif.MFT
