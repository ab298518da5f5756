/-
CRC-32 as computed by `binascii.crc32` (reflected polynomial 0xEDB88320, initial value and final
xor 0xFFFFFFFF), one bit at a time.
-/
import Verif.Basic.Bytes
namespace Verif

/-- One bit step of the shift register. -/
def crcBit (s : Nat) : Nat := if s % 2 = 1 then (s / 2) ^^^ 0xEDB88320 else s / 2

/-- `n` bit steps. -/
def crcBits : Nat → Nat → Nat
  | 0, s => s
  | n + 1, s => crcBits n (crcBit s)

/-- Feed one byte. -/
def crcByte (s : Nat) (b : UInt8) : Nat := crcBits 8 (s ^^^ b.toNat)

/-- The register after a byte string. -/
def crcFold (s : Nat) (b : Bytes) : Nat := b.foldl crcByte s

/-- `binascii.crc32(b)`. -/
def crc32 (b : Bytes) : Nat := crcFold 0xFFFFFFFF b ^^^ 0xFFFFFFFF

theorem xor_right_cancel {a b c : Nat} (h : a ^^^ c = b ^^^ c) : a = b := by
  have := congrArg (· ^^^ c) h
  simpa [Nat.xor_assoc] using this

theorem xor_left_cancel {a b c : Nat} (h : a ^^^ b = a ^^^ c) : b = c := by
  rw [Nat.xor_comm a b, Nat.xor_comm a c] at h; exact xor_right_cancel h

theorem xor_lt_32 {a b : Nat} (ha : a < 4294967296) (hb : b < 4294967296) : a ^^^ b < 4294967296 :=
  Nat.xor_lt_two_pow (n := 32) ha hb

theorem crcBit_lt {s : Nat} (h : s < 4294967296) : crcBit s < 4294967296 := by
  unfold crcBit
  split
  · exact xor_lt_32 (by omega) (by decide)
  · omega

/-- The bit step loses nothing: the top bit of the result tells which branch was taken. -/
theorem crcBit_inj {s t : Nat} (hs : s < 4294967296) (ht : t < 4294967296) (h : crcBit s = crcBit t) : s = t := by
  have key : ∀ a : Nat, a < 2147483648 → (a ^^^ 0xEDB88320).testBit 31 = true := by
    intro a ha
    rw [Nat.testBit_xor, Nat.testBit_lt_two_pow (by simpa using ha)]
    decide
  have low : ∀ a : Nat, a < 2147483648 → a.testBit 31 = false := fun a ha => Nat.testBit_lt_two_pow (by simpa using ha)
  unfold crcBit at h
  split at h <;> split at h
  · have := xor_right_cancel h; omega
  · have a := key (s / 2) (by omega); rw [h, low _ (by omega)] at a; cases a
  · have a := key (t / 2) (by omega); rw [← h, low _ (by omega)] at a; cases a
  · omega

theorem crcBits_lt : ∀ n {s : Nat}, s < 4294967296 → crcBits n s < 4294967296
  | 0, _, h => h
  | n + 1, _, h => crcBits_lt n (crcBit_lt h)

theorem crcBits_inj : ∀ n {s t : Nat}, s < 4294967296 → t < 4294967296 → crcBits n s = crcBits n t → s = t
  | 0, _, _, _, _, h => h
  | n + 1, _, _, hs, ht, h => crcBit_inj hs ht (crcBits_inj n (crcBit_lt hs) (crcBit_lt ht) h)

theorem byte_lt_32 (b : UInt8) : b.toNat < 4294967296 := by have := b.toNat_lt; omega

theorem crcByte_lt {s : Nat} (h : s < 4294967296) (b : UInt8) : crcByte s b < 4294967296 :=
  crcBits_lt _ (xor_lt_32 h (byte_lt_32 b))

theorem crcByte_inj_state {s t : Nat} (b : UInt8) (hs : s < 4294967296) (ht : t < 4294967296)
    (h : crcByte s b = crcByte t b) : s = t :=
  xor_right_cancel (crcBits_inj 8 (xor_lt_32 hs (byte_lt_32 b)) (xor_lt_32 ht (byte_lt_32 b)) h)

theorem crcByte_inj_byte {s : Nat} {b c : UInt8} (hs : s < 4294967296) (h : crcByte s b = crcByte s c) : b = c :=
  UInt8.toNat_inj.1 (xor_left_cancel (crcBits_inj 8 (xor_lt_32 hs (byte_lt_32 b)) (xor_lt_32 hs (byte_lt_32 c)) h))

theorem crcFold_lt (b : Bytes) : ∀ {s : Nat}, s < 4294967296 → crcFold s b < 4294967296 := by
  induction b with
  | nil => intro s h; exact h
  | cons x xs ih => intro s h; exact ih (crcByte_lt h x)

theorem crcFold_inj (b : Bytes) : ∀ {s t : Nat}, s < 4294967296 → t < 4294967296 → crcFold s b = crcFold t b → s = t := by
  induction b with
  | nil => intro s t _ _ h; exact h
  | cons x xs ih => intro s t hs ht h; exact crcByte_inj_state x hs ht (ih (crcByte_lt hs x) (crcByte_lt ht x) h)

/-- Changing exactly one byte changes the checksum. -/
theorem crc32_detects_byte (p q : Bytes) {x y : UInt8} (hxy : x ≠ y) : crc32 (p ++ x :: q) ≠ crc32 (p ++ y :: q) := by
  intro h
  have h := xor_right_cancel h
  simp only [crcFold, List.foldl_append, List.foldl_cons] at h
  have hp : crcFold 0xFFFFFFFF p < 4294967296 := crcFold_lt p (by decide)
  exact hxy (crcByte_inj_byte hp (crcFold_inj q (crcByte_lt hp x) (crcByte_lt hp y) h))

theorem crc32_lt (b : Bytes) : crc32 b < 4294967296 := xor_lt_32 (crcFold_lt b (by decide)) (by decide)

/-- The check value of CRC-32: `crc32(b'123456789') == 0xCBF43926`. -/
example : crc32 [0x31, 0x32, 0x33, 0x34, 0x35, 0x36, 0x37, 0x38, 0x39] = 0xCBF43926 := by decide +kernel

end Verif
