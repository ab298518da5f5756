/-
What NTFS means by a record protected with an update sequence array, independently of the code that
removes the protection.  `Spec.FRS.protect` is the writer; here is what a reader relies on.
-/
import Verif.Basic.Bytes
namespace Verif.Spec.USA

/-- The two header fields. -/
def offset (b : Bytes) : Nat := leNat (slice b 4 6)
def count (b : Bytes) : Nat := leNat (slice b 6 8)

/-- The array is at an allowed place (at or after `lowest`) and has one element for every sector
plus one. -/
structure SaneArray (b : Bytes) (lowest : Nat) : Prop where
  sectors : 1024 ≤ b.length ∧ 512 ∣ b.length
  place : lowest ≤ offset b ∧ offset b ≤ 506
  count : count b = b.length / 512 + 1
  inside : offset b + 2 * USA.count b < b.length

/-- The last two bytes of sector `k` are not the update sequence number. -/
def Torn (b : Bytes) (k : Nat) : Prop :=
  slice b (512 * k + 510) (512 * k + 512) ≠ slice b (offset b) (offset b + 2)

/-- The record without its protection: the last two bytes of each sector come from the array. -/
def Restored (b d : Bytes) : Prop :=
  d.length = b.length ∧
  ∀ p, p < b.length → d[p]? = if 510 ≤ p % 512 then b[offset b + 2 * (p / 512 + 1) + (p % 512 - 510)]? else b[p]?

end Verif.Spec.USA
