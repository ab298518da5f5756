/-
Structures that are written as a list of fields, one after the other.
-/
import Verif.Basic.Exc
namespace Verif.Proof.Chunks

theorem slice_chunk (l : List Bytes) (k : Nat) {c : Bytes} {i j : Nat} (hc : l[k]? = some c) (hi : ((l.take k).map List.length).sum = i)
    (hj : i + c.length = j) : slice l.flatten i j = c := by
  induction l generalizing k i j with
  | nil => cases hc
  | cons a l ih =>
    cases k with
    | zero =>
      injection hc with hc
      subst hc
      simp only [List.take_zero, List.map_nil, List.sum_nil] at hi
      subst hi
      rw [List.flatten_cons, slice_append_left _ _ _ _ (by omega), slice_all (by omega)]
    | succ k =>
      simp only [List.take_succ_cons, List.map_cons, List.sum_cons] at hi
      rw [List.flatten_cons, slice_append_right _ _ _ _ (by omega)]
      exact ih k hc (by omega) (by omega)

theorem leNat_chunk (l : List Bytes) (k : Nat) {n v i j : Nat} (hc : l[k]? = some (natLE n v)) (hv : v < 256 ^ n)
    (hi : ((l.take k).map List.length).sum = i) (hj : i + n = j) : leNat (slice l.flatten i j) = v := by
  rw [slice_chunk l k hc hi (by rw [natLE_length]; exact hj), leNat_natLE_of_lt hv]

theorem u8_chunk (l : List Bytes) (k : Nat) {v i : Nat} (hc : l[k]? = some (natLE 1 v)) (hv : v < 2 ^ 8)
    (hi : ((l.take k).map List.length).sum = i) : u8 l.flatten i = v := leNat_chunk l k hc hv hi rfl

theorem u16_chunk (l : List Bytes) (k : Nat) {v i : Nat} (hc : l[k]? = some (natLE 2 v)) (hv : v < 2 ^ 16)
    (hi : ((l.take k).map List.length).sum = i) : u16 l.flatten i = v := leNat_chunk l k hc (by simpa using hv) hi rfl

theorem u32_chunk (l : List Bytes) (k : Nat) {v i : Nat} (hc : l[k]? = some (natLE 4 v)) (hv : v < 2 ^ 32)
    (hi : ((l.take k).map List.length).sum = i) : u32 l.flatten i = v := leNat_chunk l k hc (by simpa using hv) hi rfl

theorem u64_chunk (l : List Bytes) (k : Nat) {v i : Nat} (hc : l[k]? = some (natLE 8 v)) (hv : v < 2 ^ 64)
    (hi : ((l.take k).map List.length).sum = i) : u64 l.flatten i = v := leNat_chunk l k hc (by simpa using hv) hi rfl

/-- `u64` and the others of a structure that follows something. -/
theorem flatten_length (l : List Bytes) : l.flatten.length = (l.map List.length).sum := List.length_flatten

end Verif.Proof.Chunks
