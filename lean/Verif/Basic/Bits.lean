/-
Bit operations on natural numbers as arithmetic.
-/
namespace Verif

theorem and_mask (x n : Nat) : x &&& (2 ^ n - 1) = x % 2 ^ n := Nat.and_two_pow_sub_one_eq_mod x n

theorem and_15 (x : Nat) : x &&& 15 = x % 16 := and_mask x 4

theorem shr4 (x : Nat) : x >>> 4 = x / 16 := by rw [Nat.shiftRight_eq_div_pow]

theorem shiftLeft_or_of_lt {a b n : Nat} (h : b < 2 ^ n) : (a <<< n) ||| b = a * 2 ^ n + b := by
  rw [Nat.shiftLeft_eq, Nat.mul_comm, Nat.two_pow_add_eq_or_of_lt h]

/-- Testing a flag: `x & (1 << n) > 0`. -/
theorem and_two_pow_pos (x n : Nat) : x &&& 2 ^ n > 0 ↔ x.testBit n = true := by
  have h : x &&& 2 ^ n = if x.testBit n then 2 ^ n else 0 := by
    apply Nat.eq_of_testBit_eq
    intro i
    rw [Nat.testBit_and, Nat.testBit_two_pow]
    by_cases hi : n = i
    · subst hi
      cases hx : x.testBit n <;> simp
    · cases hx : x.testBit n <;> simp [hi]
  rw [h]
  have := Nat.two_pow_pos n
  cases x.testBit n <;> simp <;> omega

end Verif
