/-
File control blocks in a raw image, independently of how they are searched for (used by C88-C90).
-/
import Verif.Model.MFT.Carver
namespace Verif.Spec.Carver
open Verif.MFT Verif.Attributes

/-- The 64-bit number at `p`. -/
def word (b : Bytes) (p : Nat) : Nat := leNat (slice b p (p + 8))

/-- A FILETIME between 10 Oct 1990 and 19 Oct 2028. -/
def Plausible (t : Nat) : Prop := 123000000000000000 ≤ t ∧ t ≤ 135000000000000000

/-- The page has the signature of a file control block at `q`. -/
def Signed (page : Bytes) (q : Nat) : Prop := page[q]? = some 2 ∧ page[q + 1]? = some 7

/-- The block at `q` has four plausible timestamps at its position `d`. -/
def HasTimes (page : Bytes) (q d : Nat) : Prop := q + d + 32 ≤ page.length ∧ ∀ k, k < 4 → Plausible (word page (q + d + 8 * k))

/-- The block at `q` has a plausible timestamp at its position `a`. -/
def HasAtime (page : Bytes) (q a : Nat) : Prop := q + a + 8 ≤ page.length ∧ Plausible (word page (q + a))

/-- `d` and `a` are the positions in the block at `q`: the known ones, or the first even ones that fit (in the
first 144 and 208 bytes, and 56 bytes apart). -/
def Block (guess : Option (Nat × Nat)) (page : Bytes) (q d a : Nat) : Prop :=
  Signed page q ∧ HasTimes page q d ∧ HasAtime page q a ∧
  match guess with
  | some (d', a') => d = d' ∧ a = a'
  | none => (d < 144 ∧ d % 2 = 0 ∧ ∀ d', d' < d → d' % 2 = 0 → ¬ HasTimes page q d') ∧
      (d + 56 ≤ a ∧ a < 208 ∧ a % 2 = 0 ∧ ∀ a', d + 56 ≤ a' → a' < a → a' % 2 = 0 → ¬ HasAtime page q a')

/-- The blocks of a page at even offsets, from `q` on: the first one, then the ones after its end, and so on. -/
inductive Blocks (guess : Option (Nat × Nat)) (page : Bytes) : Nat → List (Nat × Nat × Nat) → Prop
  | none {q} (h : ∀ p d a, q ≤ p → p % 2 = 0 → ¬ Block guess page p d a) : Blocks guess page q []
  | some {q p d a rest} (hq : q ≤ p) (heven : p % 2 = 0) (hb : Block guess page p d a)
      (hfirst : ∀ p' d' a', q ≤ p' → p' < p → p' % 2 = 0 → ¬ Block guess page p' d' a')
      (hrest : Blocks guess page (p + a + 8) rest) : Blocks guess page q ((p, d, a) :: rest)

/-- What is reported about a block of the page at `base`. -/
def report (base : Nat) (page : Bytes) : Nat × Nat × Nat → FCBTimestamps
  | (q, d, a) =>
    { possibleFileReference := word page (q + 8)
      ctime := decodeFiletime (word page (q + d))
      mtime := decodeFiletime (word page (q + d + 8))
      etime := decodeFiletime (word page (q + d + 16))
      atime := decodeFiletime (word page (q + d + 24))
      atimeReal := decodeFiletime (word page (q + a))
      position := base + q
      layout := (d, a) }

/-- The blocks of the pages of 4096 bytes from `base` on are reported; less than 512 bytes at the end are no page. -/
inductive Reported (guess : Option (Nat × Nat)) (image : Bytes) : Nat → List FCBTimestamps → Prop
  | stop {base} (h : image.length < base + 512) : Reported guess image base []
  | page {base blocks rest} (h : base + 512 ≤ image.length)
      (hb : Blocks guess (slice image base (base + 4096)) 0 blocks) (hrest : Reported guess image (base + 4096) rest) :
      Reported guess image base (blocks.map (report base (slice image base (base + 4096))) ++ rest)

/-- `k` occurs most often in the list; among several such ones, it is the first to occur. -/
def MostFrequent (l : List Nat) (k : Nat) : Prop :=
  (∀ x, l.count x ≤ l.count k) ∧ ∃ before after, l = before ++ k :: after ∧ ∀ x ∈ before, l.count x < l.count k

end Verif.Spec.Carver
