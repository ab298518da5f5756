/-
Property C90: the concrete cases.  Images with many file control blocks are too large to be evaluated by the kernel in one step, so
the scans of these images are computed block by block.
-/
import Verif.Props.C88_C90
namespace Verif.Props
open Verif.MFT Verif.Spec.Carver Verif.Attributes

/-- A file control block with its timestamps at the position 16, and the other one at the position 72. -/
def sampleBlock : Bytes := [2, 7, 0, 0, 0, 0, 0, 0] ++ natLE 8 (5 * 2 ^ 48 + 77) ++
  natLE 8 130000000000000000 ++ natLE 8 130000000000000001 ++ natLE 8 130000000000000002 ++ natLE 8 130000000000000003 ++
  List.replicate 24 0 ++ natLE 8 130000000000000004

/-- A file control block with its timestamps at the position 18. -/
def otherBlock : Bytes := [2, 7, 0, 0, 0, 0, 0, 0] ++ natLE 8 77 ++ [0, 0] ++
  natLE 8 130000000000000000 ++ natLE 8 130000000000000001 ++ natLE 8 130000000000000002 ++ natLE 8 130000000000000003 ++
  List.replicate 24 0 ++ natLE 8 130000000000000004

/-- `n` blocks of the first kind and `m` of the second one. -/
def carveSample (n m : Nat) : Bytes := (List.replicate n sampleBlock).flatten ++ (List.replicate m otherBlock).flatten

/-- What is carved from a block. -/
def carvedItem (reference : Nat) (layout : Nat × Nat) (position : Nat) : FCBTimestamps :=
  { possibleFileReference := reference, ctime := decodeFiletime 130000000000000000, mtime := decodeFiletime 130000000000000001,
    etime := decodeFiletime 130000000000000002, atime := decodeFiletime 130000000000000003, atimeReal := decodeFiletime 130000000000000004,
    position := position, layout := layout }

/-- What is carved from the block `k` of the first kind. -/
def sampleItem (k : Nat) : FCBTimestamps := carvedItem (5 * 2 ^ 48 + 77) (16, 72) (80 * k)

/-- What is carved from the block `k` of the second kind, after blocks which take `start` bytes. -/
def otherItem (start k : Nat) : FCBTimestamps := carvedItem 77 (18, 74) (start + 82 * k)

theorem slice_drop (b : Bytes) (s i j : Nat) : slice b (s + i) (s + j) = slice (b.drop s) i j := by
  simp only [slice, List.drop_drop]; congr 1; omega

theorem searchTimes_drop (page : Bytes) (fcb pos : Nat) : searchTimes page fcb pos = searchTimes (page.drop fcb) 0 pos := by
  fun_induction searchTimes (page.drop fcb) 0 pos with
  | case1 pos hc buf hb =>
    rw [searchTimes.eq_def]
    have e : slice page (fcb + pos) (fcb + pos + 32) = buf := by rw [Nat.add_assoc, slice_drop]; simp only [buf, Nat.zero_add]
    dsimp only; rw [e, if_pos hb, ite_self]
  | case2 pos hc buf hb hg =>
    rw [searchTimes.eq_def]
    have e : slice page (fcb + pos) (fcb + pos + 32) = buf := by rw [Nat.add_assoc, slice_drop]; simp only [buf, Nat.zero_add]
    have := List.length_drop (l := page) (i := fcb)
    dsimp only; rw [e, if_pos (by omega), if_neg hb, if_pos hg]
  | case3 pos hc buf hb hg ih =>
    rw [searchTimes.eq_def]
    have e : slice page (fcb + pos) (fcb + pos + 32) = buf := by rw [Nat.add_assoc, slice_drop]; simp only [buf, Nat.zero_add]
    have := List.length_drop (l := page) (i := fcb)
    dsimp only; rw [e, if_pos (by omega), if_neg hb, if_neg hg, ih]
  | case4 pos hc =>
    rw [searchTimes.eq_def]
    have := List.length_drop (l := page) (i := fcb)
    split
    · dsimp only
      rw [if_pos]
      rw [slice_length]; omega
    · rfl

theorem searchAtime_drop (page : Bytes) (fcb pos : Nat) : searchAtime page fcb pos = searchAtime (page.drop fcb) 0 pos := by
  fun_induction searchAtime (page.drop fcb) 0 pos with
  | case1 pos hc buf hb =>
    rw [searchAtime.eq_def]
    have e : slice page (fcb + pos) (fcb + pos + 8) = buf := by rw [Nat.add_assoc, slice_drop]; simp only [buf, Nat.zero_add]
    dsimp only; rw [e, if_pos hb, ite_self]
  | case2 pos hc buf hb hg =>
    rw [searchAtime.eq_def]
    have e : slice page (fcb + pos) (fcb + pos + 8) = buf := by rw [Nat.add_assoc, slice_drop]; simp only [buf, Nat.zero_add]
    have := List.length_drop (l := page) (i := fcb)
    dsimp only; rw [e, if_pos (by omega), if_neg hb, if_pos hg]
  | case3 pos hc buf hb hg ih =>
    rw [searchAtime.eq_def]
    have e : slice page (fcb + pos) (fcb + pos + 8) = buf := by rw [Nat.add_assoc, slice_drop]; simp only [buf, Nat.zero_add]
    have := List.length_drop (l := page) (i := fcb)
    dsimp only; rw [e, if_pos (by omega), if_neg hb, if_neg hg, ih]
  | case4 pos hc =>
    rw [searchAtime.eq_def]
    have := List.length_drop (l := page) (i := fcb)
    split
    · dsimp only
      rw [if_pos]
      rw [slice_length]; omega
    · rfl

theorem locate_drop (g : Option (Nat × Nat)) (page : Bytes) (fcb : Nat) : locate g page fcb = locate g (page.drop fcb) 0 := by
  cases g with
  | none =>
    simp only [locate]
    rw [searchTimes_drop]
    cases searchTimes (page.drop fcb) 0 0 with
    | none => rfl
    | some d => dsimp only; rw [searchAtime_drop]
  | some p => simp only [locate, Nat.add_assoc, slice_drop, Nat.zero_add]

theorem searchTimes_append (a r : Bytes) (pos d : Nat) (h : searchTimes a 0 pos = some d) : searchTimes (a ++ r) 0 pos = some d := by
  fun_induction searchTimes a 0 pos with
  | case1 pos hc buf hb => cases h
  | case2 pos hc buf hb hg =>
    have hl : buf.length = 32 := Decidable.byContradiction hb
    have e : slice (a ++ r) (0 + pos) (0 + pos + 32) = buf := by
      refine slice_append_left _ _ _ _ ?_
      simp only [buf, slice_length] at hl; omega
    rw [searchTimes.eq_def]; dsimp only
    rw [List.length_append, if_pos (by omega), e, if_neg hb, if_pos hg]; exact h
  | case3 pos hc buf hb hg ih =>
    have hl : buf.length = 32 := Decidable.byContradiction hb
    have e : slice (a ++ r) (0 + pos) (0 + pos + 32) = buf := by
      refine slice_append_left _ _ _ _ ?_
      simp only [buf, slice_length] at hl; omega
    rw [searchTimes.eq_def]; dsimp only
    rw [List.length_append, if_pos (by omega), e, if_neg hb, if_neg hg]; exact ih h
  | case4 pos hc => cases h

theorem searchAtime_append (a r : Bytes) (pos d : Nat) (h : searchAtime a 0 pos = some d) : searchAtime (a ++ r) 0 pos = some d := by
  fun_induction searchAtime a 0 pos with
  | case1 pos hc buf hb => cases h
  | case2 pos hc buf hb hg =>
    have hl : buf.length = 8 := Decidable.byContradiction hb
    have e : slice (a ++ r) (0 + pos) (0 + pos + 8) = buf := by
      refine slice_append_left _ _ _ _ ?_
      simp only [buf, slice_length] at hl; omega
    rw [searchAtime.eq_def]; dsimp only
    rw [List.length_append, if_pos (by omega), e, if_neg hb, if_pos hg]; exact h
  | case3 pos hc buf hb hg ih =>
    have hl : buf.length = 8 := Decidable.byContradiction hb
    have e : slice (a ++ r) (0 + pos) (0 + pos + 8) = buf := by
      refine slice_append_left _ _ _ _ ?_
      simp only [buf, slice_length] at hl; omega
    rw [searchAtime.eq_def]; dsimp only
    rw [List.length_append, if_pos (by omega), e, if_neg hb, if_neg hg]; exact ih h
  | case4 pos hc => cases h

theorem locate_none_append (a r : Bytes) (d t : Nat) (h : locate none a 0 = .found d t) : locate none (a ++ r) 0 = .found d t := by
  simp only [locate] at h ⊢
  cases e : searchTimes a 0 0 with
  | none => rw [e] at h; cases h
  | some d' =>
    rw [e] at h; dsimp only at h
    rw [searchTimes_append a r 0 d' e]; dsimp only
    cases e' : searchAtime a 0 (d' + 56) with
    | none => rw [e'] at h; cases h
    | some t' => rw [e'] at h; rw [searchAtime_append a r _ t' e']; exact h

theorem locate_some_append (a r : Bytes) (d t : Nat) (hd : d + 32 ≤ a.length) (ht : t + 8 ≤ a.length) :
    locate (some (d, t)) (a ++ r) 0 = locate (some (d, t)) a 0 := by
  simp only [locate]
  rw [slice_append_left _ _ _ _ (by omega), slice_append_left _ _ _ _ (by omega)]

/-- The scan of a page in which a block follows. -/
theorem scanPage_block (g : Option (Nat × Nat)) (filePos : Nat) (page : Bytes) (fcb : Nat) (block r : Bytes) (hr : page.drop fcb = block ++ r)
    (d t : Nat) (hl : block.length = t + 8) (hd : d + 32 ≤ block.length) (h8 : 16 ≤ block.length) (hm : slice block 0 2 = [2, 7])
    (hf : locate g (block ++ r) 0 = .found d t) :
    scanPage g filePos page fcb =
      .cons ⟨leNat (slice block 8 16), decodeFiletime (u64 (slice block d (d + 32)) 8), decodeFiletime (u64 (slice block d (d + 32)) 24),
        decodeFiletime (u64 (slice block d (d + 32)) 0), decodeFiletime (u64 (slice block d (d + 32)) 16),
        decodeFiletime (leNat (slice block t (t + 8))), filePos + fcb, (d, t)⟩ (scanPage g filePos page (fcb + block.length)) := by
  have hlen : fcb < page.length := by
    have := congrArg List.length hr
    simp only [List.length_drop, List.length_append] at this; omega
  rw [scanPage.eq_def, if_pos hlen]
  have e (i j : Nat) (hj : j ≤ block.length) : slice page (fcb + i) (fcb + j) = slice block i j := by
    rw [slice_drop, hr, slice_append_left _ _ _ _ hj]
  have e2 : slice page fcb (fcb + 2) = [2, 7] := by have := e 0 2 (by omega); rw [Nat.add_zero] at this; rw [this, hm]
  rw [if_neg (not_not_intro e2), locate_drop, hr, hf]
  dsimp only
  rw [e 8 16 (by omega), unpackLE, if_pos (by rw [slice_length]; omega)]
  dsimp only
  rw [Nat.add_assoc fcb d 32, e d (d + 32) hd, Nat.add_assoc fcb t 8, e t (t + 8) (by omega), hl]

/-- No mark of a block at an even position. -/
def unmarked : Bytes → Bool
  | [] => true
  | [_] => false
  | a :: b :: r => !(a == 2 && b == 7) && unmarked r

theorem scanPage_skip (g : Option (Nat × Nat)) (filePos : Nat) (page : Bytes) (l r : Bytes) (hu : unmarked l = true) (fcb : Nat)
    (hr : page.drop fcb = l ++ r) : scanPage g filePos page fcb = scanPage g filePos page (fcb + l.length) := by
  fun_induction unmarked l generalizing fcb with
  | case1 => rfl
  | case2 => cases hu
  | case3 a b l ih =>
    simp only [Bool.and_eq_true, Bool.not_eq_true', Bool.and_eq_false_iff, beq_eq_false_iff_ne] at hu
    have hlen : fcb < page.length := by
      have := congrArg List.length hr
      simp only [List.length_drop, List.length_append, List.length_cons] at this; omega
    rw [scanPage.eq_def, if_pos hlen]
    have e2 : slice page fcb (fcb + 2) = [a, b] := by
      have := slice_drop page fcb 0 2
      rw [Nat.add_zero] at this; rw [this, hr]; rfl
    rw [if_pos (by rw [e2]; intro hc; injection hc with h1 h2; injection h2 with h2 _; rcases hu.1 with h | h; exact h h1; exact h h2)]
    rw [ih hu.2 (fcb + 2) (by rw [← List.drop_drop, hr]; rfl)]
    simp only [List.length_cons]; congr 1; omega

theorem scanPage_end (g : Option (Nat × Nat)) (filePos : Nat) (page : Bytes) (fcb : Nat) (h : page.length ≤ fcb) :
    scanPage g filePos page fcb = .done := by
  rw [scanPage.eq_def, if_neg (by omega)]

theorem scanPage_missing (filePos : Nat) (page : Bytes) (fcb : Nat) (r : Bytes) (hr : page.drop fcb = otherBlock ++ r) :
    scanPage (some (16, 72)) filePos page fcb = scanPage (some (16, 72)) filePos page (fcb + 82) := by
  have hlen : fcb < page.length := by
    have := congrArg List.length hr
    simp only [List.length_drop, List.length_append, show otherBlock.length = 82 by decide] at this; omega
  rw [scanPage.eq_def, if_pos hlen]
  have e2 : slice page fcb (fcb + 2) = [2, 7] := by
    have := slice_drop page fcb 0 2
    rw [Nat.add_zero] at this; rw [this, hr]; rfl
  rw [if_neg (not_not_intro e2), locate_drop, hr, locate_some_append _ _ _ _ (by decide) (by decide)]
  rw [show locate (some (16, 72)) otherBlock 0 = .missing by decide +kernel]
  dsimp only
  rw [scanPage_skip _ _ _ (otherBlock.drop 2) r (by decide +kernel) _ (by rw [← List.drop_drop, hr]; rfl)]
  rw [Nat.add_assoc]; rfl

/-- The rest of a page with blocks of the second kind. -/
theorem scan_others_none (page : Bytes) (start m : Nat) (k : Nat) (hr : page.drop (start + 82 * k) = (List.replicate m otherBlock).flatten) :
    scanPage none 0 page (start + 82 * k) = ⟨(List.range' k m).map (otherItem start), none⟩ := by
  induction m generalizing k with
  | zero =>
    rw [scanPage_end _ _ _ _ (List.drop_eq_nil_iff.mp hr)]; rfl
  | succ m ih =>
    rw [List.replicate_succ, List.flatten_cons] at hr
    rw [scanPage_block none 0 page _ otherBlock _ hr 18 74 (by decide) (by decide) (by decide) (by decide)
      (locate_none_append _ _ _ _ (by decide +kernel))]
    have e : start + 82 * k + otherBlock.length = start + 82 * (k + 1) := by rw [show otherBlock.length = 82 by decide]; omega
    rw [e, ih (k + 1)]
    · rw [List.range'_succ, List.map_cons, Nat.zero_add]
      rw [show leNat (slice otherBlock 8 16) = 77 by decide +kernel, show u64 (slice otherBlock 18 (18 + 32)) 8 = 130000000000000001 by decide +kernel,
        show u64 (slice otherBlock 18 (18 + 32)) 24 = 130000000000000003 by decide +kernel,
        show u64 (slice otherBlock 18 (18 + 32)) 0 = 130000000000000000 by decide +kernel,
        show u64 (slice otherBlock 18 (18 + 32)) 16 = 130000000000000002 by decide +kernel,
        show leNat (slice otherBlock 74 (74 + 8)) = 130000000000000004 by decide +kernel]
      rfl
    · rw [← e, ← List.drop_drop, hr, List.drop_left]

theorem scan_others_some (page : Bytes) (m fcb : Nat) (hr : page.drop fcb = (List.replicate m otherBlock).flatten) :
    scanPage (some (16, 72)) 0 page fcb = .done := by
  induction m generalizing fcb with
  | zero => rw [scanPage_end _ _ _ _ (List.drop_eq_nil_iff.mp hr)]
  | succ m ih =>
    rw [List.replicate_succ, List.flatten_cons] at hr
    rw [scanPage_missing 0 page fcb _ hr]
    exact ih (fcb + 82) (by rw [← List.drop_drop, hr]; exact List.drop_left (l₁ := otherBlock))

theorem scan_samples (g : Option (Nat × Nat)) (hg : ∀ r, locate g (sampleBlock ++ r) 0 = .found 16 72) (page rest : Bytes) (n k : Nat)
    (hr : page.drop (80 * k) = (List.replicate n sampleBlock).flatten ++ rest) :
    scanPage g 0 page (80 * k) =
      ⟨(List.range' k n).map sampleItem ++ (scanPage g 0 page (80 * (k + n))).items, (scanPage g 0 page (80 * (k + n))).err⟩ := by
  induction n generalizing k with
  | zero => rfl
  | succ n ih =>
    rw [List.replicate_succ, List.flatten_cons, List.append_assoc] at hr
    rw [scanPage_block g 0 page _ sampleBlock _ hr 16 72 (by decide) (by decide) (by decide) (by decide) (hg _)]
    have e : 80 * k + sampleBlock.length = 80 * (k + 1) := by rw [show sampleBlock.length = 80 by decide]; omega
    rw [e, ih (k + 1)]
    · rw [List.range'_succ, List.map_cons, Nat.zero_add, Nat.add_assoc k 1 n, Nat.add_comm 1 n]
      rw [show leNat (slice sampleBlock 8 16) = 5 * 2 ^ 48 + 77 by decide +kernel, show u64 (slice sampleBlock 16 (16 + 32)) 8 = 130000000000000001 by decide +kernel,
        show u64 (slice sampleBlock 16 (16 + 32)) 24 = 130000000000000003 by decide +kernel,
        show u64 (slice sampleBlock 16 (16 + 32)) 0 = 130000000000000000 by decide +kernel,
        show u64 (slice sampleBlock 16 (16 + 32)) 16 = 130000000000000002 by decide +kernel,
        show leNat (slice sampleBlock 72 (72 + 8)) = 130000000000000004 by decide +kernel]
      rfl
    · rw [← e, ← List.drop_drop, hr, List.drop_left]

theorem flatten_replicate_length (n : Nat) (b : Bytes) : (List.replicate n b).flatten.length = n * b.length := by
  simp [List.length_flatten]

/-- One page, when the image is that short. -/
theorem scanImage_page (g : Option (Nat × Nat)) (image : Bytes) (h : 512 ≤ image.length) (h2 : image.length ≤ 4096) :
    scanImage g image 0 = scanPage g 0 image 0 := by
  rw [scanImage.eq_def, if_pos (by omega)]
  dsimp only
  rw [slice_all (by omega), if_neg (by omega), scanImage.eq_def g image (0 + 4096), if_neg (by omega)]
  rcases hs : scanPage g 0 image 0 with ⟨l, e⟩
  cases e <;> simp [Gen.append, Gen.done]

theorem carveSample_length (n m : Nat) : (carveSample n m).length = n * 80 + m * 82 := by
  rw [carveSample, List.length_append, flatten_replicate_length, flatten_replicate_length]; rfl

theorem carveSample_drop (n m : Nat) : (carveSample n m).drop (80 * n) = (List.replicate m otherBlock).flatten := by
  rw [carveSample, List.drop_append, flatten_replicate_length, List.drop_eq_nil_of_le (by rw [flatten_replicate_length]; show n * 80 ≤ _; omega)]
  rw [show sampleBlock.length = 80 by decide, Nat.mul_comm, Nat.sub_self]; rfl

/-- The first scan of an image: all the blocks. -/
theorem scan_none (n m : Nat) (h : 512 ≤ n * 80 + m * 82) (h2 : n * 80 + m * 82 ≤ 4096) :
    scanImage none (carveSample n m) 0 = ⟨(List.range' 0 n).map sampleItem ++ (List.range' 0 m).map (otherItem (80 * n)), none⟩ := by
  rw [scanImage_page _ _ (by rw [carveSample_length]; omega) (by rw [carveSample_length]; omega)]
  have := scan_samples none (fun r => locate_none_append _ r _ _ (by decide +kernel)) (carveSample n m) _ n 0 rfl
  rw [Nat.mul_zero, Nat.zero_add] at this
  have ho := scan_others_none (carveSample n m) (80 * n) m 0 (carveSample_drop n m)
  rw [Nat.mul_zero, Nat.add_zero] at ho
  rw [this, ho]

/-- The second scan of an image: the blocks of the first kind. -/
theorem scan_some (n m : Nat) (h : 512 ≤ n * 80 + m * 82) (h2 : n * 80 + m * 82 ≤ 4096) :
    scanImage (some (16, 72)) (carveSample n m) 0 = ⟨(List.range' 0 n).map sampleItem, none⟩ := by
  rw [scanImage_page _ _ (by rw [carveSample_length]; omega) (by rw [carveSample_length]; omega)]
  have := scan_samples (some (16, 72)) (fun r => by rw [locate_some_append _ _ _ _ (by decide) (by decide)]; decide +kernel) (carveSample n m) _ n 0 rfl
  rw [Nat.mul_zero, Nat.zero_add] at this
  rw [this, scan_others_some _ m _ (carveSample_drop n m)]
  simp [Gen.done]

/-- The two scans, once the candidates are known. -/
theorem carve_counts (g : Option (Nat × Nat)) (image : Bytes) (l : List FCBTimestamps) (hs : scanImage g image 0 = ⟨l, none⟩) (d nd a na : Nat)
    (hl : ¬ (l.take 100).length < 25) (hd : mostFrequent (countPositions ((l.take 100).map (·.layout.1))) = some (d, nd))
    (ha : mostFrequent (countPositions ((l.take 100).map (·.layout.2))) = some (a, na)) :
    carveTimestamps g image = if nd < 20 ∨ na < 20 then (.fail .ValueError, some (d, a)) else (scanImage (some (d, a)) image 0, some (d, a)) := by
  rw [carveTimestamps, hs]; dsimp only
  rw [ite_self]; dsimp only
  rw [if_neg hl, hd, ha]

theorem carveSample26_carved : carveTimestamps none (carveSample 26 0) = (⟨(List.range' 0 26).map sampleItem, none⟩, some (16, 72)) := by
  rw [carve_counts none _ _ (scan_none 26 0 (by decide) (by decide)) 16 26 72 26 (by decide +kernel) (by decide +kernel) (by decide +kernel)]
  rw [if_neg (by decide), scan_some 26 0 (by decide) (by decide)]

example : carveTimestamps (some (16, 72)) (carveSample 26 0) = (⟨(List.range' 0 26).map sampleItem, none⟩, some (16, 72)) :=
  C90_again_partial none usable_none (carveSample 26 0) _ _ carveSample26_carved (by simp)

/-- C90 is false: the same object carves 20 blocks from the same image at the first time, and raises `ValueError` at the
second time, as the positions guessed at the first time are used to find the candidates. -/
theorem C90_second_call : ∃ image l st, l.length = 20 ∧ carveTimestamps none image = (⟨l, none⟩, st) ∧ carveTimestamps st image = (.fail .ValueError, st) := by
  refine ⟨carveSample 20 5, (List.range' 0 20).map sampleItem, some (16, 72), by simp, ?_, ?_⟩
  · rw [carve_counts none _ _ (scan_none 20 5 (by decide) (by decide)) 16 20 72 20 (by decide +kernel) (by decide +kernel) (by decide +kernel)]
    rw [if_neg (by decide), scan_some 20 5 (by decide) (by decide)]
  · rw [carveTimestamps, scan_some 20 5 (by decide) (by decide)]; dsimp only
    rw [ite_self]; dsimp only
    rw [if_pos (by simp)]

/-- With 25 candidates without 20 of the same layout, the positions are stored although `ValueError` is raised: what is carved from another
image then differs from what a new object carves. -/
theorem C90_kept_after_error : carveTimestamps none (carveSample 19 6) = (.fail .ValueError, some (16, 72)) := by
  rw [carve_counts none _ _ (scan_none 19 6 (by decide) (by decide)) 16 19 72 19 (by decide +kernel) (by decide +kernel) (by decide +kernel)]
  rw [if_pos (by decide)]

end Verif.Props
