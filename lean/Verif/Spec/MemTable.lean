/-
The table of the timestamps found in a memory image (used to state C101).
-/
import Verif.Spec.Carver
import Verif.Spec.Text
import Verif.Model.Scripts.Text
namespace Verif.Spec.MemTable
open Verif.Spec.Carver Verif.Spec.Text Verif.Scripts

/-- The text `YYYY-MM-DD hh:mm:ss.ffffff` of the moment, or `YYYY-MM-DD hh:mm:ss` when it is a whole second. -/
def IsText (text : Str) (t : Nat) : Prop :=
  (t % 1000000 ≠ 0 ∧ Denotes text t) ∨ (t % 1000000 = 0 ∧ Denotes (text ++ Str.ofString ".000000") t)

/-- The text of a FILETIME (100 ns since 1601-01-01): that of the moment it is decoded to, which is at most 1.5 microseconds away (C26). -/
def IsTime (text : Str) (filetime : Nat) : Prop :=
  ∃ u, Attributes.decodeFiletime filetime = some u ∧ IsText text (dayNumber 1601 1 1 * 86400000000 + u) ∧
    10 * u ≤ filetime + 15 ∧ filetime ≤ 10 * u + 15

/-- The row of a block at `p` with its fields at the positions `d` and `a`: the reference, the M, A, C and E timestamps, and the real A timestamp. -/
def IsRow (image : Bytes) (d a p : Nat) (row : Row) : Prop :=
  ∃ m at_ c e real : Str, row = [.int (word image (p + 8)), .str m, .str at_, .str c, .str e, .str real] ∧
    IsTime m (word image (p + d + 8)) ∧ IsTime at_ (word image (p + d + 24)) ∧
    IsTime c (word image (p + d)) ∧ IsTime e (word image (p + d + 16)) ∧ IsTime real (word image (p + a))

/-- The names of the columns. -/
def header : Row := ["Possible MFT reference number", "M timestamp", "A timestamp", "C timestamp", "E timestamp", "A timestamp (real)"].map
  fun s => .str (Str.ofString s)

end Verif.Spec.MemTable
