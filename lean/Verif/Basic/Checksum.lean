/-
The checksum that FAT and exFAT use: rotate right by one bit and add, modulo a power of two.
-/
import Verif.Basic.Bytes
import Verif.Basic.Bits
namespace Verif

/-- One round for a checksum of `w + 1` bits: the lowest bit becomes the highest one, the byte is added. -/
def rotateAdd (w : Nat) (sum : Nat) (x : UInt8) : Nat := (sum % 2 * 2 ^ w + sum / 2 + x.toNat) % 2 ^ (w + 1)

/-- The checksum of some bytes. -/
def rotateSum (w : Nat) (bytes : Bytes) : Nat := bytes.foldl (rotateAdd w) 0

theorem rotateAdd_lt (w s : Nat) (x : UInt8) : rotateAdd w s x < 2 ^ (w + 1) := Nat.mod_lt _ (Nat.two_pow_pos _)

/-- The same, as the code has it. -/
theorem rotateAdd_eq (w s : Nat) (x : UInt8) (hs : s < 2 ^ (w + 1)) :
    ((if s &&& 1 = 0 then s >>> 1 else (s >>> 1) ||| 2 ^ w) + x.toNat) &&& (2 ^ (w + 1) - 1) = rotateAdd w s x := by
  rw [and_mask]
  unfold rotateAdd
  have h1 : s &&& 1 = s % 2 := and_mask s 1
  have h2 : s >>> 1 = s / 2 := by rw [Nat.shiftRight_eq_div_pow]
  have h4 : 2 ^ (w + 1) = 2 * 2 ^ w := by rw [Nat.pow_succ]; omega
  have h3 : s / 2 < 2 ^ w := by omega
  rw [h1, h2]
  by_cases h : s % 2 = 0
  · rw [if_pos h, h]; simp
  · rw [if_neg h, show s % 2 = 1 by omega, Nat.or_comm, ← Nat.one_mul (2 ^ w)]
    have := Nat.two_pow_add_eq_or_of_lt h3 1
    rw [Nat.mul_comm] at this
    rw [← this, Nat.one_mul (1 * 2 ^ w)]

theorem mod_add_inj {m a b x : Nat} (ha : a < m) (hb : b < m) (h : (a + x) % m = (b + x) % m) : a = b := by
  have h1 := Nat.mod_add_div (a + x) m
  have h2 := Nat.mod_add_div (b + x) m
  rw [← h] at h2
  rcases Nat.lt_trichotomy ((a + x) / m) ((b + x) / m) with hq | hq | hq
  · have : m * ((a + x) / m + 1) ≤ m * ((b + x) / m) := Nat.mul_le_mul_left m hq
    rw [Nat.mul_add] at this
    omega
  · rw [hq] at h1; omega
  · have : m * ((b + x) / m + 1) ≤ m * ((a + x) / m) := Nat.mul_le_mul_left m hq
    rw [Nat.mul_add] at this
    omega

/-- Different sums stay different. -/
theorem rotateAdd_inj_sum {w s t : Nat} {x : UInt8} (hs : s < 2 ^ (w + 1)) (ht : t < 2 ^ (w + 1)) (h : rotateAdd w s x = rotateAdd w t x) : s = t := by
  unfold rotateAdd at h
  have h4 : 2 ^ (w + 1) = 2 * 2 ^ w := by rw [Nat.pow_succ]; omega
  have hb : ∀ r, r < 2 ^ (w + 1) → r % 2 * 2 ^ w + r / 2 < 2 ^ (w + 1) := by
    intro r hr
    rcases Nat.mod_two_eq_zero_or_one r with h | h <;> rw [h] <;> omega
  have h5 := mod_add_inj (hb s hs) (hb t ht) h
  rcases Nat.mod_two_eq_zero_or_one s with h6 | h6 <;> rcases Nat.mod_two_eq_zero_or_one t with h7 | h7 <;> rw [h6, h7] at h5 <;> omega

/-- Different bytes give different sums. -/
theorem rotateAdd_inj_byte {w s : Nat} (hw : 7 ≤ w) {x y : UInt8} (h : rotateAdd w s x = rotateAdd w s y) : x = y := by
  unfold rotateAdd at h
  have h4 : 2 ^ 8 ≤ 2 ^ (w + 1) := Nat.pow_le_pow_right (by omega) (by omega)
  have hx := x.toNat_lt
  have hy := y.toNat_lt
  rw [Nat.add_comm _ x.toNat, Nat.add_comm _ y.toNat] at h
  exact UInt8.toNat_inj.mp (mod_add_inj (by omega) (by omega) h)

theorem foldl_inj {w : Nat} (l : Bytes) {s t : Nat} (hs : s < 2 ^ (w + 1)) (ht : t < 2 ^ (w + 1)) (h : l.foldl (rotateAdd w) s = l.foldl (rotateAdd w) t) : s = t := by
  induction l generalizing s t with
  | nil => exact h
  | cons x l ih => exact rotateAdd_inj_sum hs ht (ih (rotateAdd_lt ..) (rotateAdd_lt ..) h)

theorem foldl_lt (w : Nat) (l : Bytes) {s : Nat} (hs : s < 2 ^ (w + 1)) : l.foldl (rotateAdd w) s < 2 ^ (w + 1) := by
  induction l generalizing s with
  | nil => exact hs
  | cons x l ih => exact ih (rotateAdd_lt ..)

/-- One changed byte changes the checksum. -/
theorem rotateSum_detects {w : Nat} (hw : 7 ≤ w) (pre post : Bytes) {x y : UInt8} (h : x ≠ y) :
    rotateSum w (pre ++ x :: post) ≠ rotateSum w (pre ++ y :: post) := by
  unfold rotateSum
  rw [List.foldl_append, List.foldl_append, List.foldl_cons, List.foldl_cons]
  intro he
  exact h (rotateAdd_inj_byte hw (foldl_inj post (rotateAdd_lt ..) (rotateAdd_lt ..) he))

/-- Two lists of the same length that differ at one position only. -/
theorem differ_at {a b : Bytes} {i : Nat} (hl : a.length = b.length) (hi : i < a.length) (heq : ∀ j, j ≠ i → a[j]? = b[j]?) :
    ∃ pre post x y, a = pre ++ x :: post ∧ b = pre ++ y :: post ∧ a[i]? = some x ∧ b[i]? = some y ∧ pre.length = i := by
  refine ⟨a.take i, a.drop (i + 1), a[i], b[i]'(by omega), ?_, ?_, List.getElem?_eq_getElem hi, List.getElem?_eq_getElem (by omega), ?_⟩
  · simp
  · apply List.ext_getElem?
    intro j
    by_cases hj : j < i
    · rw [List.getElem?_append_left (by simp; omega), List.getElem?_take_of_lt hj, heq j (by omega)]
    · rw [List.getElem?_append_right (by simp; omega), List.length_take, Nat.min_eq_left (by omega)]
      by_cases hj' : j = i
      · subst hj'
        simp
      · rw [show j - i = (j - i - 1) + 1 by omega, List.getElem?_cons_succ, List.getElem?_drop, show i + 1 + (j - i - 1) = j by omega]
        exact (heq j hj').symm
  · simp; omega

/-! ### Zeros: 32 of them do not change a sum of 32 bits -/

theorem rotate_zero (x y z : Nat) (h1 : x + y ≤ 2147483648) (h2 : z < 2 * y) : rotateAdd 31 (2 * x + z) 0 = x + 2147483648 * (z % 2) + z / 2 := by
  unfold rotateAdd
  have e0 : (0 : UInt8).toNat = 0 := by decide
  have e1 : (2 : Nat) ^ (31 + 1) = 4294967296 := by decide
  have e2 : (2 : Nat) ^ 31 = 2147483648 := by decide
  have e3 : (2 * x + z) % 2 = z % 2 := by omega
  have e4 : (2 * x + z) / 2 = x + z / 2 := by omega
  have e5 : z % 2 < 2 := Nat.mod_lt _ (by decide)
  rw [e0, e1, e2, e3, e4, Nat.mod_eq_of_lt (by omega)]
  omega

theorem halves (s k : Nat) (hk : k < 32) (hs : s < 2 ^ 32) : ∃ x y z, s % 2 ^ k * 2 ^ (32 - k) + s / 2 ^ k = 2 * x + z ∧ x + y ≤ 2147483648 ∧ z < 2 * y ∧
    x + 2147483648 * (z % 2) + z / 2 = s % 2 ^ (k + 1) * 2 ^ (32 - (k + 1)) + s / 2 ^ (k + 1) := by
  have e4 : (2 : Nat) ^ k * 2 ^ (31 - k) = 2147483648 := by
    rw [← Nat.pow_add, show k + (31 - k) = 31 by omega]
  have hs' : s < 2 * 2147483648 := by
    have : (2 : Nat) ^ 32 = 2 * 2147483648 := by decide
    omega
  refine ⟨s % 2 ^ k * 2 ^ (31 - k), 2 ^ (31 - k), s / 2 ^ k, ?_, ?_, ?_, ?_⟩
  · rw [show 32 - k = 31 - k + 1 by omega, Nat.pow_succ, ← Nat.mul_assoc, Nat.mul_comm _ 2]
  · have h7 : (s % 2 ^ k + 1) * 2 ^ (31 - k) ≤ 2147483648 := by rw [← e4]; exact Nat.mul_le_mul_right _ (Nat.mod_lt _ (Nat.two_pow_pos k))
    rw [Nat.add_mul, Nat.one_mul] at h7
    exact h7
  · rw [Nat.div_lt_iff_lt_mul (Nat.two_pow_pos k), Nat.mul_assoc, Nat.mul_comm (2 ^ (31 - k)), e4]
    exact hs'
  · have e3 : s % 2 ^ (k + 1) = s % 2 ^ k + 2 ^ k * (s / 2 ^ k % 2) := Nat.mod_pow_succ
    have e5 : s / 2 ^ (k + 1) = s / 2 ^ k / 2 := by rw [Nat.pow_succ, Nat.div_div_eq_div_mul]
    rw [show 32 - (k + 1) = 31 - k by omega, e3, e5, Nat.add_mul, Nat.mul_right_comm (2 ^ k), e4]

theorem rotate_zeros (s : Nat) (hs : s < 2 ^ 32) (k : Nat) (hk : k ≤ 32) :
    (List.replicate k (0 : UInt8)).foldl (rotateAdd 31) s = s % 2 ^ k * 2 ^ (32 - k) + s / 2 ^ k := by
  induction k with
  | zero => rw [Nat.pow_zero, Nat.mod_one, Nat.zero_mul, Nat.div_one, Nat.zero_add]; rfl
  | succ k ih =>
    rw [List.replicate_succ', List.foldl_append, ih (by omega)]
    rw [List.foldl_cons, List.foldl_nil]
    obtain ⟨x, y, z, h1, h2, h3, h4⟩ := halves s k (by omega) hs
    rw [h1, ← h4]
    exact rotate_zero x y z h2 h3
theorem rotate_zero_blocks (s : Nat) (hs : s < 2 ^ 32) (k : Nat) : (List.replicate (32 * k) (0 : UInt8)).foldl (rotateAdd 31) s = s := by
  induction k with
  | zero => rfl
  | succ k ih =>
    rw [show 32 * (k + 1) = 32 + 32 * k by omega, ← List.replicate_append_replicate, List.foldl_append, rotate_zeros s hs 32 (by omega)]
    rw [Nat.mod_eq_of_lt hs, Nat.div_eq_of_lt hs, Nat.sub_self, Nat.pow_zero, Nat.mul_one, Nat.add_zero]
    exact ih

end Verif
