/-
Properties C88-C90: carving timestamps from file control blocks (dfir_ntfs/MFT.py:1589-1766).
-/
import Verif.Proof.Carver
namespace Verif.Props
open Verif.MFT Verif.Spec.Carver Verif.Attributes

theorem first_scan (guess : Option (Nat × Nat)) (hu : Usable guess) (image : Bytes) (l : List FCBTimestamps) (hl : Reported guess image 0 l) :
    scanImage guess image 0 = ⟨l, none⟩ := by
  obtain ⟨l', h1, h2⟩ := scanImage_reported hu image 0
  rw [h2, reported_unique hl h1]

theorem usable_none : Usable none := fun _ _ h => by cases h

theorem blocks_mem {guess : Option (Nat × Nat)} {page : Bytes} {s : Nat} {bs : List (Nat × Nat × Nat)} (h : Blocks guess page s bs) :
    ∀ x ∈ bs, s ≤ x.1 ∧ x.1 % 2 = 0 ∧ Block guess page x.1 x.2.1 x.2.2 := by
  induction h with
  | none => simp
  | @some q p d a rest hq heven hb hfirst hrest ih =>
    intro x hx
    rcases List.mem_cons.1 hx with rfl | hx
    · exact ⟨hq, heven, hb⟩
    · obtain ⟨h1, h2, h3⟩ := ih x hx
      exact ⟨by omega, h2, h3⟩

/-- The positions that are reported are even and at least 8. -/
theorem reported_usable {guess : Option (Nat × Nat)} (hu : Usable guess) {image : Bytes} {base : Nat} {l : List FCBTimestamps}
    (h : Reported guess image base l) : ∀ x ∈ l, x.layout.2 % 2 = 0 ∧ 8 ≤ x.layout.2 := by
  induction h with
  | stop => simp
  | @page base blocks rest h hb hrest ih =>
    intro x hx
    rcases List.mem_append.1 hx with hx | hx
    · obtain ⟨⟨q, d, a⟩, hm, rfl⟩ := List.mem_map.1 hx
      exact block_usable hu (blocks_mem hb _ hm).2.2
    · exact ih x hx

/-- C89: the positions of the fields are guessed from the first 100 blocks found without knowing them (or with the
positions known from before): those that occur most often.  With less than 25 blocks, or if one of
the two positions occurs in less than 20 of them, `ValueError` is raised and nothing is yielded; otherwise exactly the
blocks with these two positions are reported. -/
theorem C89_guess (guess : Option (Nat × Nat)) (hu : Usable guess) (image : Bytes) (l : List FCBTimestamps) (hl : Reported guess image 0 l) :
    ((l.take 100).length < 25 → carveTimestamps guess image = (.fail .ValueError, guess)) ∧
    (25 ≤ (l.take 100).length → ∃ d a, MostFrequent ((l.take 100).map (·.layout.1)) d ∧ MostFrequent ((l.take 100).map (·.layout.2)) a ∧
      Usable (some (d, a)) ∧
      if ((l.take 100).map (·.layout.1)).count d < 20 ∨ ((l.take 100).map (·.layout.2)).count a < 20 then
        carveTimestamps guess image = (.fail .ValueError, some (d, a))
      else ∃ l', Reported (some (d, a)) image 0 l' ∧ carveTimestamps guess image = (⟨l', none⟩, some (d, a))) := by
  have hfirst := first_scan guess hu image l hl
  have hite : (if l.length < 100 then (none : Option Exc) else none) = none := by split <;> rfl
  constructor
  · intro h
    unfold carveTimestamps
    rw [hfirst]
    dsimp only
    rw [hite]
    dsimp only
    rw [if_pos h]
  · intro h
    have hne : ∀ f : FCBTimestamps → Nat, (l.take 100).map f ≠ [] := by
      intro f hc
      rw [List.map_eq_nil_iff] at hc
      rw [hc] at h
      simp at h
    obtain ⟨d, d1, d2⟩ := mostFrequent_spec (hne (·.layout.1))
    obtain ⟨a, a1, a2⟩ := mostFrequent_spec (hne (·.layout.2))
    have hus : Usable (some (d, a)) := by
      intro d' a' e
      cases e
      obtain ⟨before, after, e, -⟩ := a2.2
      have hm : a ∈ (l.take 100).map (·.layout.2) := by rw [e]; simp
      obtain ⟨x, hx, rfl⟩ := List.mem_map.1 hm
      exact reported_usable hu hl x (List.mem_of_mem_take hx)
    refine ⟨d, a, d2, a2, hus, ?_⟩
    have hc : carveTimestamps guess image = if ((l.take 100).map (·.layout.1)).count d < 20 ∨ ((l.take 100).map (·.layout.2)).count a < 20 then
        (.fail .ValueError, some (d, a)) else (scanImage (some (d, a)) image 0, some (d, a)) := by
      unfold carveTimestamps
      rw [hfirst]
      dsimp only
      rw [hite]
      dsimp only
      rw [if_neg (by omega), d1, a1]
    rw [hc]
    split
    · rfl
    · obtain ⟨l', h1, h2⟩ := scanImage_reported hus image 0
      exact ⟨l', h1, by rw [h2]⟩

/-! ### C88 -/

/-- A block of the page at `base` of the image, with the known positions `d` and `a`. -/
def BlockAt (image : Bytes) (d a base q : Nat) : Prop :=
  base % 4096 = 0 ∧ base + 512 ≤ image.length ∧ q % 2 = 0 ∧ Block (some (d, a)) (slice image base (base + 4096)) q d a

theorem blocks_apart {guess : Option (Nat × Nat)} {page : Bytes} {s : Nat} {bs : List (Nat × Nat × Nat)} (h : Blocks guess page s bs) :
    bs.Pairwise (fun x y => x.1 + x.2.2 + 8 ≤ y.1) := by
  induction h with
  | none => exact .nil
  | some hq heven hb hfirst hrest ih => exact .cons (fun y hy => (blocks_mem hrest y hy).1) ih

theorem blocks_cover {guess : Option (Nat × Nat)} {page : Bytes} {s : Nat} {bs : List (Nat × Nat × Nat)} (h : Blocks guess page s bs)
    {q d a : Nat} (hs : s ≤ q) (he : q % 2 = 0) (hb : Block guess page q d a) : ∃ x ∈ bs, x.1 ≤ q ∧ q < x.1 + x.2.2 + 8 := by
  induction h with
  | none hn => exact absurd hb (hn _ _ _ hs he)
  | @some s p d' a' rest hq heven hb' hfirst hrest ih =>
    by_cases h1 : q < p
    · exact absurd hb (hfirst _ _ _ hs h1 he)
    · by_cases h2 : q < p + a' + 8
      · exact ⟨(p, d', a'), by simp, by dsimp only; omega, by dsimp only; omega⟩
      · obtain ⟨x, hx, h3⟩ := ih (by omega)
        exact ⟨x, by simp [hx], h3⟩

theorem reported_mem {d a : Nat} {image : Bytes} {base : Nat} {l : List FCBTimestamps} (hbase : base % 4096 = 0)
    (h : Reported (some (d, a)) image base l) :
    ∀ x ∈ l, ∃ b q, base ≤ b ∧ BlockAt image d a b q ∧ x = report b (slice image b (b + 4096)) (q, d, a) := by
  induction h with
  | stop => simp
  | @page base blocks rest h hb hrest ih =>
    intro x hx
    rcases List.mem_append.1 hx with hx | hx
    · obtain ⟨⟨q, d', a'⟩, hm, rfl⟩ := List.mem_map.1 hx
      obtain ⟨-, h2, h3⟩ := blocks_mem hb _ hm
      dsimp only at h2 h3
      obtain ⟨rfl, rfl⟩ := h3.2.2.2
      exact ⟨base, q, Nat.le_refl _, ⟨hbase, h, h2, h3⟩, rfl⟩
    · obtain ⟨b, q, h1, h2, h3⟩ := ih (by omega) x hx
      exact ⟨b, q, by omega, h2, h3⟩

theorem block_end {guess : Option (Nat × Nat)} {page : Bytes} {q d a : Nat} (h : Block guess page q d a) : q + a + 8 ≤ page.length := h.2.2.1.1

theorem word_page (image : Bytes) (b p : Nat) (h : p + 8 ≤ 4096) : word (slice image b (b + 4096)) p = word image (b + p) := by
  unfold word
  rw [slice_slice _ _ _ _ _ (by omega)]
  rfl

/-- C88 (soundness): what is carved is in the image, at an even offset, inside of one page of 4096 bytes: the
signature, four plausible timestamps at the first position, another one at the second position, and the reference. -/
theorem C88_sound (guess : Option (Nat × Nat)) (hu : Usable guess) (image : Bytes) (l : List FCBTimestamps) (st : Option (Nat × Nat))
    (h : carveTimestamps guess image = (⟨l, none⟩, st)) : ∃ d a, st = some (d, a) ∧ ∀ x ∈ l,
      x.layout = (d, a) ∧ x.position % 2 = 0 ∧
      image[x.position]? = some 2 ∧ image[x.position + 1]? = some 7 ∧
      x.position % 4096 + d + 32 ≤ 4096 ∧ x.position + d + 32 ≤ image.length ∧
      x.position % 4096 + a + 8 ≤ 4096 ∧ x.position + a + 8 ≤ image.length ∧
      x.ctime = decodeFiletime (word image (x.position + d)) ∧ Plausible (word image (x.position + d)) ∧
      x.mtime = decodeFiletime (word image (x.position + d + 8)) ∧ Plausible (word image (x.position + d + 8)) ∧
      x.etime = decodeFiletime (word image (x.position + d + 16)) ∧ Plausible (word image (x.position + d + 16)) ∧
      x.atime = decodeFiletime (word image (x.position + d + 24)) ∧ Plausible (word image (x.position + d + 24)) ∧
      x.atimeReal = decodeFiletime (word image (x.position + a)) ∧ Plausible (word image (x.position + a)) ∧
      x.possibleFileReference = word image (x.position + 8) := by
  obtain ⟨l0, hl0, -⟩ := scanImage_reported hu image 0
  obtain ⟨c1, c2⟩ := C89_guess guess hu image l0 hl0
  by_cases hlen : (l0.take 100).length < 25
  · rw [c1 hlen] at h; cases h
  obtain ⟨d, a, -, -, hus, hcase⟩ := c2 (by omega)
  split at hcase
  · rw [hcase] at h; cases h
  obtain ⟨l', h1, h2⟩ := hcase
  rw [h2] at h
  cases h
  refine ⟨d, a, rfl, ?_⟩
  intro x hx
  obtain ⟨b, q, -, ⟨hb, hlen, heven, hbl⟩, rfl⟩ := reported_mem rfl h1 x hx
  obtain ⟨⟨s1, s2⟩, ⟨t0, t1⟩, ⟨v0, v1⟩, -⟩ := hbl
  have hl := slice_length image b (b + 4096)
  have ha := (hus d a rfl).2
  have hpos : (b + q) % 4096 = q := by omega
  have tt : ∀ k, k < 4 → Plausible (word image (b + q + d + 8 * k)) := by
    intro k hk
    have := t1 k hk
    rw [word_page image b _ (by omega)] at this
    rw [show b + q + d + 8 * k = b + (q + d + 8 * k) by omega]
    exact this
  dsimp only [report]
  rw [word_page image b (q + d) (by omega), word_page image b (q + d + 8) (by omega), word_page image b (q + d + 16) (by omega),
    word_page image b (q + d + 24) (by omega), word_page image b (q + a) (by omega), word_page image b (q + 8) (by omega)]
  rw [word_page image b (q + a) (by omega)] at v1
  rw [slice_getElem?, if_pos (by omega)] at s1
  rw [slice_getElem?, if_pos (by omega)] at s2
  simp only [← Nat.add_assoc] at s1 s2 v1 ⊢
  exact ⟨trivial, by omega, s1, s2, by omega, by omega, by omega, by omega, trivial, tt 0 (by omega), trivial, tt 1 (by omega), trivial,
    tt 2 (by omega), trivial, tt 3 (by omega), trivial, v1, trivial⟩

theorem reported_apart {d a : Nat} {image : Bytes} {base : Nat} {l : List FCBTimestamps} (hbase : base % 4096 = 0)
    (h : Reported (some (d, a)) image base l) : l.Pairwise (fun x y => x.position + a + 8 ≤ y.position) := by
  induction h with
  | stop => exact .nil
  | @page base blocks rest h hb hrest ih =>
    rw [List.pairwise_append]
    refine ⟨?_, ih (by omega), ?_⟩
    · rw [List.pairwise_map]
      refine List.Pairwise.imp_of_mem ?_ (blocks_apart hb)
      intro x y hx hy hxy
      have := (blocks_mem hb x hx).2.2.2.2.2.2
      dsimp only [report]
      omega
    · intro x hx y hy
      obtain ⟨⟨q, d', a'⟩, hm, rfl⟩ := List.mem_map.1 hx
      obtain ⟨-, -, h3⟩ := blocks_mem hb _ hm
      have he := block_end h3
      obtain ⟨rfl, rfl⟩ := h3.2.2.2
      obtain ⟨b, q', k1, -, rfl⟩ := reported_mem (by omega) hrest y hy
      have hl := slice_length image base (base + 4096)
      dsimp only [report] at *
      omega

/-- C88: the blocks that are carved do not overlap and are in the order of their offsets. -/
theorem C88_apart (guess : Option (Nat × Nat)) (hu : Usable guess) (image : Bytes) (l : List FCBTimestamps) (d a : Nat)
    (h : carveTimestamps guess image = (⟨l, none⟩, some (d, a))) : l.Pairwise (fun x y => x.position + a + 8 ≤ y.position) := by
  obtain ⟨l0, hl0, -⟩ := scanImage_reported hu image 0
  obtain ⟨c1, c2⟩ := C89_guess guess hu image l0 hl0
  by_cases hlen : (l0.take 100).length < 25
  · rw [c1 hlen] at h; cases h
  obtain ⟨d', a', -, -, hus, hcase⟩ := c2 (by omega)
  split at hcase
  · rw [hcase] at h; cases h
  obtain ⟨l', h1, h2⟩ := hcase
  rw [h2] at h
  cases h
  exact reported_apart rfl h1

theorem reported_cover {d a : Nat} {image : Bytes} {base : Nat} {l : List FCBTimestamps} (hbase : base % 4096 = 0)
    (h : Reported (some (d, a)) image base l) {b q : Nat} (hb : BlockAt image d a b q) (hle : base ≤ b) :
    ∃ x ∈ l, x.position ≤ b + q ∧ b + q < x.position + a + 8 := by
  obtain ⟨b1, b2, b3, b4⟩ := hb
  induction h with
  | stop => omega
  | @page base blocks rest h hbl hrest ih =>
    by_cases he : b = base
    · subst he
      obtain ⟨x, hx, h1, h2⟩ := blocks_cover hbl (Nat.zero_le q) b3 b4
      have := (blocks_mem hbl x hx).2.2.2.2.2.2
      exact ⟨_, List.mem_append_left _ (List.mem_map.2 ⟨x, hx, rfl⟩), by dsimp only [report]; omega, by dsimp only [report]; omega⟩
    · obtain ⟨x, hx, h1⟩ := ih (by omega) (by omega)
      exact ⟨x, List.mem_append_right _ hx, h1⟩

/-- C88 (completeness): every block with the guessed positions at an even offset of a page (of at least 512 bytes) is
carved, or overlaps with one before it that is. -/
theorem C88_complete (guess : Option (Nat × Nat)) (hu : Usable guess) (image : Bytes) (l : List FCBTimestamps) (d a : Nat)
    (h : carveTimestamps guess image = (⟨l, none⟩, some (d, a))) (b q : Nat) (hb : BlockAt image d a b q) :
    ∃ x ∈ l, x.position ≤ b + q ∧ b + q < x.position + a + 8 := by
  obtain ⟨l0, hl0, -⟩ := scanImage_reported hu image 0
  obtain ⟨c1, c2⟩ := C89_guess guess hu image l0 hl0
  by_cases hlen : (l0.take 100).length < 25
  · rw [c1 hlen] at h; cases h
  obtain ⟨d', a', -, -, hus, hcase⟩ := c2 (by omega)
  split at hcase
  · rw [hcase] at h; cases h
  obtain ⟨l', h1, h2⟩ := hcase
  rw [h2] at h
  cases h
  exact reported_cover rfl h1 hb (Nat.zero_le _)

/-! ### C90 -/

/-- C90 (what holds): carving again with the same object gives the same blocks if at least 25 of them
were found, all with the positions that were guessed.  The full claim - carving again gives the same result - is false, see
`C90_second_call`. -/
theorem C90_again_partial (guess : Option (Nat × Nat)) (hu : Usable guess) (image : Bytes) (l : List FCBTimestamps) (st : Option (Nat × Nat))
    (h : carveTimestamps guess image = (⟨l, none⟩, st)) (hlen : 25 ≤ l.length) : carveTimestamps st image = (⟨l, none⟩, st) := by
  obtain ⟨l0, hl0, -⟩ := scanImage_reported hu image 0
  obtain ⟨c1, c2⟩ := C89_guess guess hu image l0 hl0
  by_cases hlen0 : (l0.take 100).length < 25
  · rw [c1 hlen0] at h; cases h
  obtain ⟨d, a, -, -, hus, hcase⟩ := c2 (by omega)
  split at hcase
  · rw [hcase] at h; cases h
  obtain ⟨l', h1, h2⟩ := hcase
  rw [h2] at h
  cases h
  obtain ⟨-, c3⟩ := C89_guess (some (d, a)) hus image l h1
  have htake : 25 ≤ (l.take 100).length := by rw [List.length_take]; omega
  obtain ⟨d', a', ⟨-, b1, t1, m1, -⟩, ⟨-, b2, t2, m2, -⟩, hus', hcase⟩ := c3 htake
  have hall : ∀ x ∈ l.take 100, x.layout = (d, a) := by
    intro x hx
    obtain ⟨b, q, -, -, rfl⟩ := reported_mem rfl h1 x (List.mem_of_mem_take hx)
    rfl
  have e1 : (l.take 100).map (·.layout.1) = List.replicate (l.take 100).length d := by
    rw [List.eq_replicate_iff]
    refine ⟨by simp, ?_⟩
    intro y hy
    obtain ⟨x, hx, rfl⟩ := List.mem_map.1 hy
    rw [hall x hx]
  have e2 : (l.take 100).map (·.layout.2) = List.replicate (l.take 100).length a := by
    rw [List.eq_replicate_iff]
    refine ⟨by simp, ?_⟩
    intro y hy
    obtain ⟨x, hx, rfl⟩ := List.mem_map.1 hy
    rw [hall x hx]
  have f1 : d' = d := by
    have : d' ∈ List.replicate (l.take 100).length d := by rw [← e1, m1]; simp
    exact (List.mem_replicate.1 this).2
  have f2 : a' = a := by
    have : a' ∈ List.replicate (l.take 100).length a := by rw [← e2, m2]; simp
    exact (List.mem_replicate.1 this).2
  subst f1 f2
  rw [e1, e2, List.count_replicate_self, List.count_replicate_self, if_neg (by omega)] at hcase
  obtain ⟨l'', h3, h4⟩ := hcase
  rw [h4, reported_unique h3 h1]

end Verif.Props
