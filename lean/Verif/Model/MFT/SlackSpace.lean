/-
Model of dfir_ntfs/MFT.py:600-731: `SlackSpace`, carving file names from slack space.
-/
import Verif.Model.Attributes
namespace Verif.MFT
open Verif.Attributes

/-- dfir_ntfs/MFT.py:609-610. -/
def timestampNotBefore : Nat := 125000000000000000
/-- dfir_ntfs/MFT.py:610. -/
def timestampNotAfter : Nat := 145000000000000000

/-- dfir_ntfs/MFT.py:619-620 `validate_timestamp`. -/
def validateTimestamp (t : Nat) : Bool := t ≥ timestampNotBefore && t ≤ timestampNotAfter

/-- dfir_ntfs/MFT.py:622-629 `validate_file_name`. -/
def validateFileName (name : Str) : Bool :=
  if name.length = 0 ∨ name.length > 255 then false                                    -- 623
  else if 0x2F ∈ name ∨ 0 ∈ name then false                                            -- 626
  else true

/-- dfir_ntfs/MFT.py:653-661: `attr_pos` and `attr_buf` for timestamps at `pos` (which is at least 8, or
4, or 0). -/
def carveCandidate (value : Bytes) (pos : Nat) : Nat × Bytes :=
  if pos ≥ 8 then (pos - 8, value.drop (pos - 8))                                       -- 653
  else if pos = 4 then (pos - 4, List.replicate 8 0xFF ++ value.drop (pos - 4 + 4))     -- 656
  else (pos, List.replicate 8 0xFF ++ value.drop pos)                                   -- 659

/-- dfir_ntfs/MFT.py:639-684, the loop of `carve_internal`: the values of the reported `$FILE_NAME`
attributes with `attr_pos`.  The timestamps (`get_mtime` and so on) are decoded at 665-668 only to see
whether that raises an exception; it never does for 32 bytes of timestamps within the bounds, so only
`get_file_name` (669) is modelled here. -/
def carveLoop (value : Bytes) (pos : Nat) : List (Nat × Bytes) :=
  if pos < value.length then                                                            -- 639
    let buf := slice value pos (pos + 32)
    if buf.length ≠ 32 then []                                                          -- 641
    else
      let ts := [leNat (slice buf 0 8), leNat (slice buf 8 16), leNat (slice buf 16 24), leNat (slice buf 24 32)]  -- 644
      if ts.all validateTimestamp && (decide (pos ≥ 8) || pos == 4 || pos == 0) then    -- 652
        let c := carveCandidate value pos
        match fileNameName c.2 with                                                     -- 669
        | .error _ => carveLoop value (pos + 2)                                         -- 670-671
        | .ok name =>
          if validateFileName name then c :: carveLoop value (pos + 68)                 -- 673-681
          else carveLoop value (pos + 2)
      else carveLoop value (pos + 2)                                                    -- 683
  else []
termination_by value.length - pos

/-- dfir_ntfs/MFT.py:689. -/
def carvePrintable : List Nat :=
  (Str.ofString "abcdefghijklmnopqrstuvwxyzABCDEFGHIJKLMNOPQRSTUVWXYZ0123456789!\"#$%&'()*+,-.;<=>?@[]^_`{|}~ \t")

/-- dfir_ntfs/MFT.py:694-699: skip the trailing null characters.  (`curr_pos` may become -1 in Python;
all that is asked of it is whether it is positive, so the truncated subtraction makes no difference.) -/
def skipNulls (slack : Bytes) (pos : Nat) : Nat :=
  if 0 < pos then
    if slice slack pos (pos + 2) ≠ [0, 0] then pos
    else skipNulls slack (pos - 2)
  else pos
termination_by pos

/-- dfir_ntfs/MFT.py:706-724: the loop that goes backwards; `acc` is the name so far, in the reading
order (the code collects the reversed string and reverses it at 727). -/
def partialNameLoop (slack : Bytes) (pos : Nat) (acc : Str) : Str :=
  if 0 < pos then
    let byte1 := u8 slack pos
    let byte2 := u8 slack (pos + 1)
    if byte1 ∈ carvePrintable ∧ byte2 = 0 then partialNameLoop slack (pos - 2) (byte1 :: acc)  -- 710
    else if acc.length ≥ 5 then acc                                                     -- 717
    else partialNameLoop slack (pos - 2) []                                             -- 720
  else acc
termination_by pos

/-- dfir_ntfs/MFT.py:685-727: the name of the partial attribute before the first full one. -/
def partialName (value : Bytes) (firstAttrPos : Nat) : Option Str :=
  if firstAttrPos ≥ 10 then                                                             -- 685
    let slack := value.take firstAttrPos
    let pos := skipNulls slack (firstAttrPos - 2)
    if 0 < pos then                                                                     -- 701
      let name := partialNameLoop slack pos []
      if name.length ≥ 5 then some name else none                                       -- 726
    else none
  else none

/-- dfir_ntfs/MFT.py:612-734: What carving yields: the value of an attribute, or the recognizable part of a name. -/
inductive Carved where
  | fileName (value : Bytes)
  | partialName (name : Str)
  deriving DecidableEq, Repr

/-- dfir_ntfs/MFT.py:631-726 `carve_internal`. -/
def carveInternal (value : Bytes) (yieldPartial : Bool) : List Carved :=
  if value.length ≥ 8 then                                                              -- 632
    let found := carveLoop value (if value.length % 2 ≠ 0 then 1 else 0)                -- 633-635
    found.map (fun c => .fileName c.2) ++
      (match found with
       | [] => []
       | first :: _ => if yieldPartial then ((partialName value first.1).map Carved.partialName).toList else [])
  else []

/-- dfir_ntfs/MFT.py:612-734 `carve`, for a value that is a list of byte strings (729-732; a value that
is one byte string is treated like a list of one, 733-735). -/
def carve (values : List Bytes) (yieldPartial : Bool) : List Carved := values.flatMap fun v => carveInternal v yieldPartial

end Verif.MFT
