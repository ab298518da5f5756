/-
Fields of structures made of little-endian numbers.
-/
import Verif.Basic.Exc
namespace Verif.Proof.Fields

theorem slice_skip {n v : Nat} {b : Bytes} {i j : Nat} (h : n ≤ i) : slice (natLE n v ++ b) i j = slice b (i - n) (j - n) := by
  rw [slice_append_right _ _ _ _ (by rw [natLE_length]; exact h), natLE_length]

theorem slice_here {n v : Nat} {b : Bytes} : slice (natLE n v ++ b) 0 n = natLE n v := by
  rw [slice_append_left _ _ _ _ (by rw [natLE_length]; omega), slice_all (by rw [natLE_length]; omega)]

theorem slice_only {n v : Nat} : slice (natLE n v) 0 n = natLE n v := slice_all (by rw [natLE_length]; omega)

theorem slice_skip_int {n : Nat} {v : Int} {b : Bytes} {i j : Nat} (h : n ≤ i) : slice (intLE n v ++ b) i j = slice b (i - n) (j - n) := slice_skip h

theorem slice_here_int {n : Nat} {v : Int} {b : Bytes} : slice (intLE n v ++ b) 0 n = intLE n v := slice_here

theorem slice_skip_zeros {n : Nat} {b : Bytes} {i j : Nat} (h : n ≤ i) : slice (zeros n ++ b) i j = slice b (i - n) (j - n) := by
  rw [slice_append_right _ _ _ _ (by rw [zeros_length]; exact h), zeros_length]

theorem unpack_natLE {n v : Nat} (h : v < 256 ^ n) : unpackLE n (natLE n v) = .ok v := by
  unfold unpackLE
  rw [if_pos (natLE_length n v), leNat_natLE_of_lt h]

end Verif.Proof.Fields
