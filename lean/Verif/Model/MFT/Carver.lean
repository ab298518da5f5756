/-
Model of dfir_ntfs/MFT.py:1589-1766 (`MetadataCarver`).

Simplification: the raw image is shorter than 2^63 bytes, so that `seek` cannot overflow.
-/
import Verif.Model.Attributes
namespace Verif.MFT
open Verif.Attributes

/-- dfir_ntfs/MFT.py:1589 `FCBTimestamps`: the timestamps are decoded (1686-1689, 1705, 1717), `position` is the first of
the `positions` and `layout` the other two (1725). -/
structure FCBTimestamps where
  possibleFileReference : Nat
  mtime : Option Nat
  atime : Option Nat
  ctime : Option Nat
  etime : Option Nat
  atimeReal : Option Nat
  position : Nat
  layout : Nat × Nat
  deriving DecidableEq, Repr

/-- dfir_ntfs/MFT.py:1608: `filetime_min`. -/
def filetimeMin : Nat := 123000000000000000
/-- dfir_ntfs/MFT.py:1609: `filetime_max`. -/
def filetimeMax : Nat := 135000000000000000

/-- dfir_ntfs/MFT.py:1654, 1674, 1702, 1714: the check of one timestamp. -/
def goodFiletime (ts : Nat) : Bool := filetimeMin ≤ ts ∧ ts ≤ filetimeMax

/-- dfir_ntfs/MFT.py:1650-1656, 1670-1676: the check of four timestamps in 32 bytes. -/
def goodFiletimes (buf : Bytes) : Bool :=
  goodFiletime (u64 buf 0) && goodFiletime (u64 buf 8) && goodFiletime (u64 buf 16) && goodFiletime (u64 buf 24)

/-- dfir_ntfs/MFT.py:1644-1663: search for four timestamps. -/
def searchTimes (page : Bytes) (fcb pos : Nat) : Option Nat :=
  if pos < page.length ∧ pos < 144 then
    let buf := slice page (fcb + pos) (fcb + pos + 32)
    if buf.length ≠ 32 then none                                                          -- 1647
    else if goodFiletimes buf then some pos                                               -- 1658-1661
    else searchTimes page fcb (pos + 2)
  else none
termination_by 144 - pos

/-- dfir_ntfs/MFT.py:1696-1708: search for one timestamp. -/
def searchAtime (page : Bytes) (fcb pos : Nat) : Option Nat :=
  if pos < page.length ∧ pos < 208 then
    let buf := slice page (fcb + pos) (fcb + pos + 8)
    if buf.length ≠ 8 then none                                                           -- 1698
    else if goodFiletime (leNat buf) then some pos                                        -- 1702-1706
    else searchAtime page fcb (pos + 2)
  else none
termination_by 208 - pos

/-- dfir_ntfs/MFT.py:1636-1717: what is found in a candidate file control block: the end of the page comes too
early (1667-1668, which leaves the loop over the page), nothing, or timestamps at these two positions. -/
inductive Located where
  | truncated
  | missing
  | found (dup atime : Nat)
  deriving DecidableEq, Repr

/-- dfir_ntfs/MFT.py:1636-1717; `guess` are the two guessed positions (both are set at the same time, 1759-1760). -/
def locate (guess : Option (Nat × Nat)) (page : Bytes) (fcb : Nat) : Located :=
  match guess with
  | none =>
    match searchTimes page fcb 0 with                                                     -- 1643-1663
    | none => .missing
    | some d =>
      match searchAtime page fcb (d + 56) with                                            -- 1693-1708
      | none => .missing
      | some a => .found d a
  | some (d, a) =>
    let buf := slice page (fcb + d) (fcb + d + 32)
    if buf.length ≠ 32 then .truncated                                                    -- 1667-1668
    else if ¬ goodFiletimes buf then .missing                                             -- 1678
    else
      let buf := slice page (fcb + a) (fcb + a + 8)
      if buf.length = 8 ∧ goodFiletime (leNat buf) then .found d a                        -- 1711-1717
      else .missing

/-- dfir_ntfs/MFT.py:1628-1730: the loop over the file control blocks of a page. -/
def scanPage (guess : Option (Nat × Nat)) (filePos : Nat) (page : Bytes) (fcb : Nat) : Gen FCBTimestamps :=
  if fcb < page.length then
    if slice page fcb (fcb + 2) ≠ [0x02, 0x07] then scanPage guess filePos page (fcb + 2)  -- 1631-1634
    else
      match locate guess page fcb with
      | .truncated => .done
      | .missing => scanPage guess filePos page (fcb + 2)                                  -- 1730
      | .found d a =>
        match unpackLE 8 (slice page (fcb + 8) (fcb + 16)) with                           -- 1721-1722
        | .error e => .fail e
        | .ok reference =>
          let buf := slice page (fcb + d) (fcb + d + 32)
          let times : FCBTimestamps :=                                                    -- 1683-1689, 1725
            ⟨reference, decodeFiletime (u64 buf 8), decodeFiletime (u64 buf 24), decodeFiletime (u64 buf 0),
              decodeFiletime (u64 buf 16), decodeFiletime (leNat (slice page (fcb + a) (fcb + a + 8))), filePos + fcb, (d, a)⟩
          .cons times (scanPage guess filePos page (fcb + a + 8))                          -- 1725-1728
  else .done
termination_by page.length - fcb

/-- dfir_ntfs/MFT.py:1618-1732 `carve_fcb_timestamps_internal`: the loop over the pages. -/
def scanImage (guess : Option (Nat × Nat)) (image : Bytes) (filePos : Nat) : Gen FCBTimestamps :=
  if filePos < image.length then
    let page := slice image filePos (filePos + 4096)
    if page.length < 512 then .done                                                       -- 1625-1626
    else (scanPage guess filePos page 0).append (scanImage guess image (filePos + 4096))
  else .done
termination_by image.length - filePos
decreasing_by omega

/-- dfir_ntfs/MFT.py:1742-1750: increment a counter in a dictionary (kept in the order of insertion). -/
def increment (key : Nat) : List (Nat × Nat) → List (Nat × Nat)
  | [] => [(key, 1)]
  | (k, n) :: rest => if k = key then (k, n + 1) :: rest else (k, n) :: increment key rest

/-- dfir_ntfs/MFT.py:1735-1750: count the positions. -/
def countPositions (positions : List Nat) : List (Nat × Nat) := positions.foldl (fun d p => increment p d) []

/-- dfir_ntfs/MFT.py:1759-1760, `max(d, key = d.get)`: the first key with the largest count, and the count. -/
def mostFrequent : List (Nat × Nat) → Option (Nat × Nat)
  | [] => none
  | (k, n) :: rest =>
    match mostFrequent rest with
    | none => some (k, n)
    | some (k', n') => if n' > n then some (k', n') else some (k, n)

/-- dfir_ntfs/MFT.py:1615-1766 `carve_fcb_timestamps`: the items it yields, and the guessed positions that the object
has afterwards. -/
def carveTimestamps (guess : Option (Nat × Nat)) (image : Bytes) : Gen FCBTimestamps × Option (Nat × Nat) :=
  let first := scanImage guess image 0
  match (if first.items.length < 100 then first.err else none) with                       -- an exception before the break
  | some e => (.fail e, guess)
  | none =>
    let candidates := first.items.take 100                                                -- 1753-1754
    if candidates.length < 25 then (.fail .ValueError, guess)                             -- 1756-1757
    else
      match mostFrequent (countPositions (candidates.map (·.layout.1))), mostFrequent (countPositions (candidates.map (·.layout.2))) with
      | some (d, nd), some (a, na) =>
        if nd < 20 ∨ na < 20 then (.fail .ValueError, some (d, a))                        -- 1762-1763
        else (scanImage (some (d, a)) image 0, some (d, a))                               -- 1765-1766
      | _, _ => (.fail .ValueError, guess)
      -- (not reachable: `max` of an empty dictionary)

end Verif.MFT
