/-
Properties C26 (FILETIME) and C27 (file attribute flags).
-/
import Verif.Spec.Attributes
import Verif.Basic.Bits
namespace Verif.Props
open Verif.Attributes Verif.Spec.Attr

/-! ### C26 -/

theorem rhe_mul (m d : Nat) (hd : 0 < d) : roundHalfEven (m * d) d = m := by
  unfold roundHalfEven
  rw [Nat.mul_mod_left, if_pos (by omega), Nat.mul_div_cancel _ hd]

/-- `roundHalfEven n d` is a nearest integer to `n / d`. -/
theorem rhe_near (n d : Nat) (hd : 0 < d) : 2 * (roundHalfEven n d * d) ≤ 2 * n + d ∧ 2 * n ≤ 2 * (roundHalfEven n d * d) + d := by
  have h1 := Nat.div_add_mod n d
  have h2 := Nat.mod_lt n hd
  rw [Nat.mul_comm] at h1
  unfold roundHalfEven
  split
  · omega
  · split
    · rw [Nat.add_mul]; omega
    · split
      · omega
      · rw [Nat.add_mul]; omega

theorem rhe_le (n m d : Nat) (hd : 0 < d) (h : n ≤ m * d) : roundHalfEven n d ≤ m := by
  have h1 := Nat.div_add_mod n d
  have h2 := Nat.mod_lt n hd
  have h3 : n / d ≤ m := by
    have := Nat.div_le_div_right (c := d) h
    rwa [Nat.mul_div_cancel _ hd] at this
  by_cases h4 : n / d = m
  · have h5 : n % d = 0 := by rw [h4, Nat.mul_comm] at h1; omega
    unfold roundHalfEven
    rw [h5, if_pos (by omega)]; omega
  · unfold roundHalfEven
    split
    · omega
    · split
      · omega
      · split <;> omega

theorem le_rhe (n m d : Nat) (hd : 0 < d) (h : m * d ≤ n) : m ≤ roundHalfEven n d := by
  have h3 : m ≤ n / d := (Nat.le_div_iff_mul_le hd).2 h
  unfold roundHalfEven
  split
  · omega
  · split
    · omega
    · split <;> omega

theorem rhe_mono (n m d : Nat) (_ : 0 < d) (h : n ≤ m) : roundHalfEven n d ≤ roundHalfEven m d := by
  have hdiv := Nat.div_le_div_right (c := d) h
  by_cases hq : n / d = m / d
  · have h1 := Nat.div_add_mod n d
    have h2 := Nat.div_add_mod m d
    rw [hq] at h1
    have h3 : n % d ≤ m % d := by omega
    unfold roundHalfEven
    rw [hq]
    repeat' split
    all_goals omega
  · have h1 : roundHalfEven n d ≤ n / d + 1 := by
      unfold roundHalfEven
      repeat' split
      all_goals omega
    have h2 : m / d ≤ roundHalfEven m d := by
      unfold roundHalfEven
      repeat' split
      all_goals omega
    omega

/-- C26, as stated (`floor(value / 10)` microseconds), is false of the code, which divides with
floating-point numbers: for a value of the year 2012 that is a whole number of microseconds the
decoded datetime is one microsecond off. -/
theorem C26_not_exact : decodeFiletime 130000000000000010 = some 13000000000000000 ∧ 130000000000000010 / 10 = 13000000000000001 := by
  decide +kernel

theorem C26_not_floor : decodeFiletime 7 = some 1 ∧ 7 / 10 = 0 := by decide +kernel

theorem log2_lt_of_lt {q k : Nat} (hk : 0 < k) (h : q < 2 ^ k) : q.log2 < k := by
  by_cases hq : q = 0
  · rw [hq, Nat.log2_zero]; omega
  · exact (Nat.log2_lt hq).2 h

/-- C26 (partial): values that are whole microseconds are decoded exactly below `2^53` microseconds
(until 1886). -/
theorem C26_exact_partial (us : Nat) (h : us < 2 ^ 53) : decodeFiletime (10 * us) = some us := by
  have hk : Nat.log2 us ≤ 52 := Nat.le_of_lt_succ (log2_lt_of_lt (by omega) h)
  have e : microsecondsOfTenths (10 * us) = us := by
    unfold microsecondsOfTenths
    dsimp only
    rw [Nat.mul_div_cancel_left _ (by omega : 0 < 10), if_pos hk]
    have := Nat.two_pow_pos (52 - us.log2)
    rw [show 10 * us * 2 ^ (52 - us.log2) = us * 2 ^ (52 - us.log2) * 10 by rw [Nat.mul_comm 10 us, Nat.mul_right_comm],
      rhe_mul _ _ (by omega), rhe_mul _ _ this]
  unfold decodeFiletime
  rw [e, if_pos]
  have : (2 : Nat) ^ 53 < microsecondsFrom1601 := by decide
  omega

/-- C26 (partial): even numbers of microseconds are decoded exactly below `2^54` microseconds (until
2171). -/
theorem C26_exact_even_partial (us : Nat) (he : us % 2 = 0) (h : us < 2 ^ 54) : decodeFiletime (10 * us) = some us := by
  by_cases h53 : us < 2 ^ 53
  · exact C26_exact_partial us h53
  have hk : us.log2 = 53 := (Nat.log2_eq_iff (by omega)).2 ⟨by omega, by omega⟩
  have e : microsecondsOfTenths (10 * us) = us := by
    unfold microsecondsOfTenths
    dsimp only
    rw [Nat.mul_div_cancel_left _ (by omega : 0 < 10), hk, if_neg (by omega),
      show 10 * us = us / 2 * (10 * 2 ^ (53 - 52)) by omega, rhe_mul _ _ (by decide)]
    omega
  unfold decodeFiletime
  rw [e, if_pos]
  have : (2 : Nat) ^ 54 < microsecondsFrom1601 := by decide
  omega

theorem microseconds_error (t k : Nat) (hk : k = Nat.log2 (t / 10)) :
    20 * microsecondsOfTenths t ≤ 2 * t + 10 + 10 * 2 ^ (k - 52) ∧ 2 * t ≤ 20 * microsecondsOfTenths t + 10 + 10 * 2 ^ (k - 52) := by
  unfold microsecondsOfTenths
  dsimp only
  rw [← hk]
  by_cases h : k ≤ 52
  · rw [if_pos h, show k - 52 = 0 by omega]
    have hp := Nat.two_pow_pos (52 - k)
    generalize 2 ^ (52 - k) = d at *
    obtain ⟨a1, a2⟩ := rhe_near (t * d) 10 (by omega)
    obtain ⟨b1, b2⟩ := rhe_near (roundHalfEven (t * d) 10) d hp
    generalize roundHalfEven (t * d) 10 = x at *
    generalize roundHalfEven x d = y at *
    have c1 : 20 * y * d ≤ (2 * t + 20) * d := by
      rw [Nat.mul_assoc, Nat.add_mul, Nat.mul_assoc 2]
      omega
    have c2 : 2 * t * d ≤ (20 * y + 20) * d := by
      rw [Nat.mul_assoc, Nat.add_mul, Nat.mul_assoc 20]
      omega
    have := Nat.le_of_mul_le_mul_right c1 hp
    have := Nat.le_of_mul_le_mul_right c2 hp
    omega
  · rw [if_neg h]
    have hp := Nat.two_pow_pos (k - 52)
    obtain ⟨a1, a2⟩ := rhe_near t (10 * 2 ^ (k - 52)) (by omega)
    generalize 2 ^ (k - 52) = d at *
    generalize roundHalfEven t (10 * d) = x at *
    rw [show x * (10 * d) = 10 * (x * d) by rw [Nat.mul_left_comm]] at a1 a2
    omega

/-- C26 (partial): for every value below `10 * 2^54` (until 2171) the decoded datetime exists and is
less than or equal to one microsecond away from the exact moment, or 1.5 microseconds from 1886 on. -/
theorem C26_error_partial (t : Nat) (h : t < 10 * 2 ^ 54) : ∃ us, decodeFiletime t = some us ∧
    2 * t ≤ 20 * us + (if t < 10 * 2 ^ 53 then 20 else 30) ∧ 20 * us ≤ 2 * t + (if t < 10 * 2 ^ 53 then 20 else 30) := by
  obtain ⟨e1, e2⟩ := microseconds_error t _ rfl
  have hk : Nat.log2 (t / 10) ≤ 53 := Nat.le_of_lt_succ (log2_lt_of_lt (by omega) (by omega))
  have hk' : t < 10 * 2 ^ 53 → Nat.log2 (t / 10) ≤ 52 := fun h => Nat.le_of_lt_succ (log2_lt_of_lt (by omega) (by omega))
  have hb : 2 ^ (Nat.log2 (t / 10) - 52) ≤ if t < 10 * 2 ^ 53 then 1 else 2 := by
    split
    · rw [show Nat.log2 (t / 10) - 52 = 0 by have := hk' (by assumption); omega]; decide
    · exact Nat.le_trans (Nat.pow_le_pow_right (by decide) (show Nat.log2 (t / 10) - 52 ≤ 1 by omega)) (by decide)
  refine ⟨microsecondsOfTenths t, ?_, ?_, ?_⟩
  · unfold decodeFiletime
    rw [if_pos]
    have : (2 : Nat) ^ 54 + 2 < microsecondsFrom1601 := by decide
    split at hb <;> omega
  · split at hb <;> split <;> omega
  · split at hb <;> split <;> omega

theorem microseconds_mono (s t : Nat) (h : s ≤ t) : microsecondsOfTenths s ≤ microsecondsOfTenths t := by
  have hq : s / 10 ≤ t / 10 := Nat.div_le_div_right h
  have hk : Nat.log2 (s / 10) ≤ Nat.log2 (t / 10) := by
    by_cases h0 : s / 10 = 0
    · rw [h0, Nat.log2_zero]; omega
    · exact (Nat.le_log2 (by omega)).2 (Nat.le_trans (Nat.log2_self_le h0) hq)
  by_cases he : Nat.log2 (s / 10) = Nat.log2 (t / 10)
  · unfold microsecondsOfTenths
    dsimp only
    rw [he]
    split
    · exact rhe_mono _ _ _ (Nat.two_pow_pos _) (rhe_mono _ _ _ (by omega) (Nat.mul_le_mul_right _ h))
    · exact Nat.mul_le_mul_right _ (rhe_mono _ _ _ (by have := Nat.two_pow_pos (Nat.log2 (t / 10) - 52); omega) h)
  · have hlt : Nat.log2 (s / 10) < Nat.log2 (t / 10) := by omega
    generalize hj : Nat.log2 (s / 10) = j at *
    generalize hk' : Nat.log2 (t / 10) = k at *
    have ht0 : t / 10 ≠ 0 := by
      intro h0; rw [h0, Nat.log2_zero] at hk'; omega
    have hs2 : s < 10 * 2 ^ (j + 1) := by
      by_cases h0 : s / 10 = 0
      · have := Nat.two_pow_pos (j + 1); omega
      · have := (Nat.log2_lt h0).1 (show (s / 10).log2 < j + 1 by omega); omega
    have ht2 : 10 * 2 ^ k ≤ t := by
      have := Nat.log2_self_le ht0; rw [hk'] at this; omega
    have hpow : 2 ^ (j + 1) ≤ 2 ^ k := Nat.pow_le_pow_right (by decide) hlt
    apply Nat.le_trans (m := 2 ^ (j + 1))
    · unfold microsecondsOfTenths
      dsimp only
      rw [hj]
      split
      · apply rhe_le _ _ _ (Nat.two_pow_pos _)
        apply rhe_le _ _ _ (by omega)
        rw [Nat.mul_right_comm]
        exact Nat.mul_le_mul_right _ (by omega)
      · have e : 2 ^ (j + 1) = 2 ^ 53 * 2 ^ (j - 52) := by rw [← Nat.pow_add]; congr 1; omega
        rw [e]
        apply Nat.mul_le_mul_right
        apply rhe_le _ _ _ (by have := Nat.two_pow_pos (j - 52); omega)
        rw [Nat.mul_left_comm, ← e]; omega
    · apply Nat.le_trans hpow
      unfold microsecondsOfTenths
      dsimp only
      rw [hk']
      split
      · apply le_rhe _ _ _ (Nat.two_pow_pos _)
        apply le_rhe _ _ _ (by omega)
        rw [Nat.mul_right_comm]
        exact Nat.mul_le_mul_right _ (by omega)
      · have e : 2 ^ k = 2 ^ 52 * 2 ^ (k - 52) := by rw [← Nat.pow_add]; congr 1; omega
        rw [e]
        apply Nat.mul_le_mul_right
        apply le_rhe _ _ _ (by have := Nat.two_pow_pos (k - 52); omega)
        rw [Nat.mul_left_comm, ← e]; omega

/-- C26 (partial): decoding keeps the order of timestamps, for all values: a later FILETIME never
decodes to an earlier datetime, and when a value is beyond the year 9999 so are all later ones.
Missing from C26: the microsecond itself from 1886 on (`C26_not_exact`). -/
theorem C26_monotone_partial (s t : Nat) (h : s ≤ t) :
    (decodeFiletime s = none → decodeFiletime t = none) ∧
    (∀ a b, decodeFiletime s = some a → decodeFiletime t = some b → a ≤ b) := by
  have hm := microseconds_mono s t h
  unfold decodeFiletime
  constructor
  · intro hs
    split at hs
    · cases hs
    · rw [if_neg (by omega)]
  · intro a b ha hb
    split at ha
    · split at hb
      · cases ha; cases hb; exact hm
      · cases hb
    · cases ha

/-- Not vacuous: both branches of the code are reached. -/
example : decodeFiletime 132539328000000000 = some 13253932800000000 ∧ decodeFiletime 0xFFFFFFFFFFFFFFFF = none := by decide +kernel

/-! ### C27 -/

/-- C27: the text names exactly the documented flags that are set, each once, by bit number. -/
theorem C27_text (v : Nat) : resolveFileAttributes v =
    pyJoin (Str.ofString " | ") ((documentedAttributes.filter fun p => v.testBit p.1).map fun p => Str.ofString p.2) := by
  unfold resolveFileAttributes fileAttributeNames
  congr 1
  have hs : sortBy (fun p => (p.1 : Int)) fileAttrList = documentedAttributes.map fun p => (2 ^ p.1, Str.ofString p.2) := by decide +kernel
  rw [hs, List.filter_map, List.map_map]
  congr 1
  apply List.filter_congr
  intro p _
  show decide (v &&& 2 ^ p.1 > 0) = v.testBit p.1
  have := and_two_pow_pos v p.1
  cases hb : v.testBit p.1 <;> simp_all

/-- C27: two values have the same text exactly when they agree on every documented flag. -/
theorem C27_injective (v w : Nat) : resolveFileAttributes v = resolveFileAttributes w ↔
    ∀ p ∈ documentedAttributes, v.testBit p.1 = w.testBit p.1 := by
  rw [C27_text, C27_text]
  constructor
  · intro h
    have hmem : ∀ u : Nat, ∀ s ∈ (documentedAttributes.filter fun p => u.testBit p.1).map fun p => Str.ofString p.2,
        s ≠ [] ∧ 0x7C ∉ s := by
      intro u s hs
      obtain ⟨p, hp, rfl⟩ := List.mem_map.1 hs
      have hp := (List.mem_filter.1 hp).1
      have key : ∀ p ∈ documentedAttributes, Str.ofString p.2 ≠ [] ∧ 0x7C ∉ Str.ofString p.2 := by decide +kernel
      exact key p hp
    have hl := pyJoin_inj (c := 0x7C) (s1 := [0x20]) (s2 := [0x20]) (by decide) _ _ (hmem v) (hmem w)
      (by have e : Str.ofString " | " = [0x20] ++ 0x7C :: [0x20] := by decide +kernel
          rw [← e]; exact h)
    intro p hp
    have hinj : ∀ p ∈ documentedAttributes, ∀ q ∈ documentedAttributes, Str.ofString p.2 = Str.ofString q.2 → p = q := by decide +kernel
    have half : ∀ a b : Nat, (documentedAttributes.filter fun p => a.testBit p.1).map (fun p => Str.ofString p.2) =
        (documentedAttributes.filter fun p => b.testBit p.1).map (fun p => Str.ofString p.2) → a.testBit p.1 = true → b.testBit p.1 = true := by
      intro a b hab ha
      have : Str.ofString p.2 ∈ (documentedAttributes.filter fun p => a.testBit p.1).map (fun p => Str.ofString p.2) :=
        List.mem_map.2 ⟨p, List.mem_filter.2 ⟨hp, ha⟩, rfl⟩
      rw [hab] at this
      obtain ⟨q, hq, he⟩ := List.mem_map.1 this
      obtain ⟨q1, q2⟩ := List.mem_filter.1 hq
      rw [← hinj q q1 p hp he]; exact q2
    cases hv : v.testBit p.1 with
    | true => exact (half v w hl hv).symm
    | false =>
      cases hw : w.testBit p.1 with
      | false => rfl
      | true => rw [half w v hl.symm hw] at hv; cases hv
  · intro h
    rw [List.filter_congr h]

/-- Not vacuous: the attributes of a hidden, compressed directory. -/
example : resolveFileAttributes 0x812 = Str.ofString "HIDDEN | DIRECTORY | COMPRESSED" := by decide +kernel

end Verif.Props
