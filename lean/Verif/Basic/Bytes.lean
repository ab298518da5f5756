/-
Bytes, Python slices and little-endian integers.
-/
namespace Verif

/-- A Python `bytes`/`bytearray` object. -/
abbrev Bytes := List UInt8

/-- Python `b[i : j]` for non-negative `i`, `j` (both bounds clamp, `j < i` gives the empty
string).  `fileobj.seek(i); fileobj.read(j - i)` on a file with contents `b` is the same slice. -/
def slice (b : Bytes) (i j : Nat) : Bytes := (b.drop i).take (j - i)

/-- Unsigned little-endian integer: `int.from_bytes(b, 'little')`, also what
`struct.unpack('<B' / '<H' / '<L' / '<Q', b)` computes for a string of the matching length. -/
def leNat : Bytes → Nat
  | [] => 0
  | b :: bs => b.toNat + 256 * leNat bs

/-- Signed little-endian integer: `int.from_bytes(b, 'little', signed = True)`. -/
def leInt (bs : Bytes) : Int :=
  if 2 * leNat bs < 256 ^ bs.length then (leNat bs : Int) else (leNat bs : Int) - (256 : Int) ^ bs.length

/-- Little-endian encoding of `v` in `n` bytes (`v.to_bytes(n, 'little')` for `v < 256^n`). -/
def natLE : Nat → Nat → Bytes
  | 0, _ => []
  | n + 1, v => UInt8.ofNat (v % 256) :: natLE n (v / 256)

/-- Two's complement little-endian encoding of `v` in `n` bytes. -/
def intLE (n : Nat) (v : Int) : Bytes := natLE n (v % (256 : Int) ^ n).toNat

/-- `struct.unpack('<H', b[i : i + 2])[0]` on a buffer known to be long enough. -/
def u16 (b : Bytes) (i : Nat) : Nat := leNat (slice b i (i + 2))
/-- `struct.unpack('<L', b[i : i + 4])[0]` on a buffer known to be long enough. -/
def u32 (b : Bytes) (i : Nat) : Nat := leNat (slice b i (i + 4))
/-- `struct.unpack('<Q', b[i : i + 8])[0]` on a buffer known to be long enough. -/
def u64 (b : Bytes) (i : Nat) : Nat := leNat (slice b i (i + 8))
/-- `b[i]` on a buffer known to be long enough (also `struct.unpack('<B', b[i : i + 1])[0]`). -/
def u8 (b : Bytes) (i : Nat) : Nat := leNat (slice b i (i + 1))

/-- `b'\x00' * n`. -/
def zeros (n : Nat) : Bytes := List.replicate n 0

/-! ### Lemmas about slices -/

theorem slice_length (b : Bytes) (i j : Nat) : (slice b i j).length = min (j - i) (b.length - i) := by
  simp [slice]

theorem slice_length_of_le {b : Bytes} {i j : Nat} (h : j ≤ b.length) : (slice b i j).length = j - i := by
  rw [slice_length]; omega

theorem slice_length_le (b : Bytes) (i j : Nat) : (slice b i j).length ≤ j - i := by
  rw [slice_length]; omega

theorem slice_eq_nil_of_le {b : Bytes} {i j : Nat} (h : j ≤ i) : slice b i j = [] := by
  simp [slice, Nat.sub_eq_zero_of_le h]

theorem slice_nil (i j : Nat) : slice [] i j = [] := by simp [slice]

theorem slice_zero (b : Bytes) (j : Nat) : slice b 0 j = b.take j := by simp [slice]

theorem slice_all {b : Bytes} {j : Nat} (h : b.length ≤ j) : slice b 0 j = b := by
  rw [slice_zero]; exact List.take_of_length_le h

theorem slice_getElem? (b : Bytes) (i j k : Nat) :
    (slice b i j)[k]? = if k < j - i then b[i + k]? else none := by
  simp only [slice, List.getElem?_take, List.getElem?_drop]

theorem slice_append_adj (b : Bytes) {i j k : Nat} (hij : i ≤ j) (hjk : j ≤ k) :
    slice b i j ++ slice b j k = slice b i k := by
  apply List.ext_getElem?
  intro n
  rw [List.getElem?_append]
  simp only [slice_getElem?, slice_length]
  by_cases h1 : n < min (j - i) (b.length - i)
  · rw [if_pos h1, if_pos (by omega), if_pos (by omega)]
  · rw [if_neg h1]
    by_cases h2 : j - i ≤ b.length - i
    · have hm : min (j - i) (b.length - i) = j - i := by omega
      rw [hm]
      by_cases h3 : n < k - i
      · rw [if_pos (by omega), if_pos h3]; congr 1; omega
      · rw [if_neg (by omega), if_neg h3]
    · have hm : min (j - i) (b.length - i) = b.length - i := by omega
      rw [hm]
      have e1 : b[i + n]? = none := by
        apply List.getElem?_eq_none; omega
      have e2 : b[j + (n - (b.length - i))]? = none := by
        apply List.getElem?_eq_none; omega
      rw [e1, e2]; simp

theorem slice_slice (b : Bytes) (i j k l : Nat) (h : i + l ≤ j) :
    slice (slice b i j) k l = slice b (i + k) (i + l) := by
  apply List.ext_getElem?
  intro n
  simp only [slice_getElem?]
  by_cases h1 : n < l - k
  · rw [if_pos h1, if_pos (by omega), if_pos (by omega)]; congr 1; omega
  · rw [if_neg h1, if_neg (by omega)]

theorem slice_append_left (a b : Bytes) (i j : Nat) (h : j ≤ a.length) :
    slice (a ++ b) i j = slice a i j := by
  apply List.ext_getElem?
  intro n
  simp only [slice_getElem?]
  by_cases h1 : n < j - i
  · rw [if_pos h1, if_pos h1, List.getElem?_append_left (by omega)]
  · rw [if_neg h1, if_neg h1]

theorem slice_append_right (a b : Bytes) (i j : Nat) (h : a.length ≤ i) :
    slice (a ++ b) i j = slice b (i - a.length) (j - a.length) := by
  apply List.ext_getElem?
  intro n
  simp only [slice_getElem?]
  by_cases h1 : n < j - i
  · rw [if_pos h1, if_pos (by omega), List.getElem?_append_right (by omega)]; congr 1; omega
  · rw [if_neg h1, if_neg (by omega)]

/-- The slice `[|a|, |a|+|b|)` of `a ++ b ++ c` is `b`. -/
theorem slice_mid (a b c : Bytes) (i j : Nat) (hi : i = a.length) (hj : j = a.length + b.length) :
    slice (a ++ b ++ c) i j = b := by
  rw [List.append_assoc, slice_append_right _ _ _ _ (by omega), slice_append_left _ _ _ _ (by omega)]
  subst hi; subst hj
  rw [Nat.sub_self, slice_all (by omega)]

theorem drop_eq_slice (b : Bytes) (i : Nat) : b.drop i = slice b i b.length := by
  simp only [slice]; exact (List.take_of_length_le (by simp)).symm

theorem slice_set_of_outside {b : Bytes} {o i j : Nat} {x : UInt8} (h : o < i ∨ j ≤ o) :
    slice (b.set o x) i j = slice b i j := by
  apply List.ext_getElem?
  intro n
  simp only [slice_getElem?]
  by_cases h1 : n < j - i
  · rw [if_pos h1, if_pos h1, List.getElem?_set_ne (by omega)]
  · rw [if_neg h1, if_neg h1]

theorem slice_two {b : Bytes} {i : Nat} {x y : UInt8} (h : slice b i (i + 2) = [x, y]) :
    b[i]? = some x ∧ b[i + 1]? = some y := by
  have h0 := slice_getElem? b i (i + 2) 0
  have h1 := slice_getElem? b i (i + 2) 1
  rw [h] at h0 h1
  rw [if_pos (by omega)] at h0 h1
  exact ⟨by simpa using h0.symm, by simpa using h1.symm⟩

theorem slice_two_of_lt {b : Bytes} {i : Nat} (h : i + 1 < b.length) : slice b i (i + 2) = [b[i], b[i + 1]] := by
  apply List.ext_getElem?
  intro n
  rw [slice_getElem?]
  match n with
  | 0 => simp
  | 1 => simp
  | n + 2 => rw [if_neg (by omega)]; simp

/-- Equal slices from equal bytes. -/
theorem slice_congr {a b : Bytes} {i j : Nat} (h : ∀ p, i ≤ p → p < j → a[p]? = b[p]?) :
    slice a i j = slice b i j := by
  apply List.ext_getElem?
  intro n
  simp only [slice_getElem?]
  by_cases h1 : n < j - i
  · rw [if_pos h1, if_pos h1, h _ (by omega) (by omega)]
  · rw [if_neg h1, if_neg h1]

/-! ### Lemmas about little-endian integers -/

theorem leNat_lt : ∀ bs : Bytes, leNat bs < 256 ^ bs.length
  | [] => by simp [leNat]
  | b :: bs => by
    have h := leNat_lt bs
    have hb := b.toNat_lt
    simp only [leNat, List.length_cons, Nat.pow_succ]
    omega

theorem natLE_length : ∀ n v, (natLE n v).length = n
  | 0, _ => rfl
  | n + 1, v => by simp [natLE, natLE_length n]

theorem leNat_natLE : ∀ n v, leNat (natLE n v) = v % 256 ^ n
  | 0, v => by simp [natLE, leNat, Nat.mod_one]
  | n + 1, v => by
    simp only [natLE, leNat, leNat_natLE n, Nat.pow_succ]
    have : (UInt8.ofNat (v % 256)).toNat = v % 256 := by
      simp [UInt8.toNat_ofNat']
    rw [this, Nat.mul_comm (256 ^ n) 256, Nat.mod_mul]

theorem leNat_natLE_of_lt {n v : Nat} (h : v < 256 ^ n) : leNat (natLE n v) = v := by
  rw [leNat_natLE, Nat.mod_eq_of_lt h]

theorem natLE_leNat : ∀ bs : Bytes, natLE bs.length (leNat bs) = bs
  | [] => rfl
  | b :: bs => by
    have hb := b.toNat_lt
    simp only [natLE, leNat, List.length_cons]
    have h1 : (b.toNat + 256 * leNat bs) % 256 = b.toNat := by omega
    have h2 : (b.toNat + 256 * leNat bs) / 256 = leNat bs := by omega
    rw [h1, h2, natLE_leNat bs]
    simp

theorem leNat_inj {a b : Bytes} (hl : a.length = b.length) (h : leNat a = leNat b) : a = b := by
  rw [← natLE_leNat a, ← natLE_leNat b, hl, h]

theorem leNat_append (a b : Bytes) : leNat (a ++ b) = leNat a + 256 ^ a.length * leNat b := by
  induction a with
  | nil => simp [leNat]
  | cons x xs ih =>
    simp only [List.cons_append, leNat, ih, List.length_cons, Nat.pow_succ]
    rw [Nat.mul_add, Nat.mul_comm (256 ^ xs.length) 256, Nat.mul_assoc]; omega

theorem intLE_length (n : Nat) (v : Int) : (intLE n v).length = n := natLE_length _ _

theorem pow256_pos (n : Nat) : 0 < 256 ^ n := Nat.pow_pos (by decide)

theorem leInt_intLE {n : Nat} {v : Int} (hlo : -(256 : Int) ^ n ≤ 2 * v) (hhi : 2 * v < (256 : Int) ^ n) :
    leInt (intLE n v) = v := by
  have hp : (0 : Int) < (256 : Int) ^ n := Int.pow_pos (by decide)
  have hcast : ((256 ^ n : Nat) : Int) = (256 : Int) ^ n := by simp
  have hm : 0 ≤ v % (256 : Int) ^ n := Int.emod_nonneg _ (by omega)
  have hm2 : v % (256 : Int) ^ n < (256 : Int) ^ n := Int.emod_lt_of_pos _ hp
  have e : leNat (intLE n v) = (v % (256 : Int) ^ n).toNat := by
    unfold intLE
    apply leNat_natLE_of_lt
    omega
  unfold leInt
  rw [intLE_length, e]
  by_cases hv : 0 ≤ v
  · have : v % (256 : Int) ^ n = v := Int.emod_eq_of_lt hv (by omega)
    rw [this, if_pos (by omega)]; omega
  · have : v % (256 : Int) ^ n = v + (256 : Int) ^ n := by
      rw [← Int.add_emod_right]; exact Int.emod_eq_of_lt (by omega) (by omega)
    rw [this, if_neg (by omega)]; omega

theorem leInt_bounds (bs : Bytes) :
    -(256 : Int) ^ bs.length ≤ 2 * leInt bs ∧ 2 * leInt bs < (256 : Int) ^ bs.length := by
  have hl := leNat_lt bs
  have hcast : ((256 ^ bs.length : Nat) : Int) = (256 : Int) ^ bs.length := by simp
  unfold leInt
  split <;> omega

theorem intLE_leInt (bs : Bytes) : intLE bs.length (leInt bs) = bs := by
  have hl := leNat_lt bs
  have hcast : ((256 ^ bs.length : Nat) : Int) = (256 : Int) ^ bs.length := by simp
  have : (leInt bs % (256 : Int) ^ bs.length).toNat = leNat bs := by
    unfold leInt
    split
    · rw [Int.emod_eq_of_lt (by omega) (by omega)]; omega
    · rw [Int.sub_emod_right, Int.emod_eq_of_lt (by omega) (by omega)]; omega
  unfold intLE
  rw [this, natLE_leNat]

theorem zeros_length (n : Nat) : (zeros n).length = n := by simp [zeros]

theorem u8_lt (b : Bytes) (i : Nat) : u8 b i < 256 := by
  have h := leNat_lt (slice b i (i + 1))
  have hl := slice_length_le b i (i + 1)
  have : (256 : Nat) ^ (slice b i (i + 1)).length ≤ 256 ^ 1 := Nat.pow_le_pow_right (by decide) (by omega)
  simp only [u8]; omega

theorem u16_lt (b : Bytes) (i : Nat) : u16 b i < 65536 := by
  have h := leNat_lt (slice b i (i + 2))
  have hl := slice_length_le b i (i + 2)
  have : (256 : Nat) ^ (slice b i (i + 2)).length ≤ 256 ^ 2 := Nat.pow_le_pow_right (by decide) (by omega)
  simp only [u16]; omega

theorem u32_lt (b : Bytes) (i : Nat) : u32 b i < 4294967296 := by
  have h := leNat_lt (slice b i (i + 4))
  have hl := slice_length_le b i (i + 4)
  have : (256 : Nat) ^ (slice b i (i + 4)).length ≤ 256 ^ 4 := Nat.pow_le_pow_right (by decide) (by omega)
  simp only [u32]; omega

theorem u64_lt (b : Bytes) (i : Nat) : u64 b i < 18446744073709551616 := by
  have h := leNat_lt (slice b i (i + 8))
  have hl := slice_length_le b i (i + 8)
  have : (256 : Nat) ^ (slice b i (i + 8)).length ≤ 256 ^ 8 := Nat.pow_le_pow_right (by decide) (by omega)
  simp only [u64]; omega

theorem u8_eq_of_lt {b : Bytes} {i : Nat} (h : i < b.length) : u8 b i = b[i].toNat := by
  have hs : slice b i (i + 1) = [b[i]] := by
    apply List.ext_getElem?
    intro n
    rw [slice_getElem?]
    match n with
    | 0 => simp [h]
    | n + 1 => rw [if_neg (by omega)]; simp
  simp [u8, hs, leNat]

theorem leInt_byte {b : Bytes} {i : Nat} (h : i < b.length) :
    leInt (slice b i (i + 1)) = if u8 b i < 128 then (u8 b i : Int) else (u8 b i : Int) - 256 := by
  have hl : (slice b i (i + 1)).length = 1 := by rw [slice_length]; omega
  unfold leInt
  rw [hl]
  show (if 2 * u8 b i < 256 ^ 1 then (u8 b i : Int) else _) = _
  split <;> split <;> first | omega | rfl | (simp [u8])

end Verif
