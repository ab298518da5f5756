/-
Property C76: fast pages.
-/
import Verif.Props.C35_C36
namespace Verif.Props
open Verif.LogFile Verif.Spec.Log

/-- The last LSN of a log page, and the file offset recorded by a fast page. -/
def lastLsnOf (buf : Bytes) : Nat := leNat (slice buf 8 16)
def fastOffsetOf (buf : Bytes) : Nat := leNat (slice buf 60 64)

/-- The page `n`, one of the pages 2 to 33, is a fast page to apply: it is valid, and its last LSN is
later than those of all log pages after the fast pages. -/
def FastPage (p : Parser) (file : Bytes) (n : Nat) (buf : Bytes) : Prop :=
  2 ≤ n ∧ n < 34 ∧ LogPage p file n buf ∧ 0 < lastLsnOf buf ∧
  ∀ m other, 34 ≤ m → m < p.fileSize / 4096 → LogPage p file m other → lastLsnOf other < lastLsnOf buf

/-- The page covers a position in the file. -/
def Covers (buf : Bytes) (i : Nat) : Prop := fastOffsetOf buf ≤ i ∧ i < fastOffsetOf buf + 4096

theorem pagesLoop_mem_iff {p : Parser} {file : Bytes} : ∀ {n i : Nat} {l : List LogRecordPage}, p.pagesLoop file n i = .ok l →
    ∀ page, page ∈ l ↔ ∃ k, i ≤ k ∧ k < i + n ∧ p.getPage file k = .ok (some page)
  | 0, i, l, h, page => by
    cases h
    exact ⟨fun h => (nomatch h), fun ⟨k, h1, h2, _⟩ => absurd h1 (by omega)⟩
  | n + 1, i, l, h, page => by
    unfold Parser.pagesLoop at h
    have hsplit : (∃ k, i ≤ k ∧ k < i + (n + 1) ∧ p.getPage file k = .ok (some page)) ↔
        p.getPage file i = .ok (some page) ∨ ∃ k, i + 1 ≤ k ∧ k < i + 1 + n ∧ p.getPage file k = .ok (some page) := by
      constructor
      · rintro ⟨k, h1, h2, h3⟩
        by_cases hk : k = i
        · subst hk; exact .inl h3
        · exact .inr ⟨k, by omega, by omega, h3⟩
      · rintro (h | ⟨k, h1, h2, h3⟩)
        · exact ⟨i, by omega, by omega, h⟩
        · exact ⟨k, by omega, by omega, h3⟩
    rw [hsplit]
    split at h
    · cases h
    · rename_i hg
      rw [pagesLoop_mem_iff h page, hg]
      exact ⟨.inr, fun h => h.resolve_left (fun h => nomatch h)⟩
    · rename_i pg hg
      split at h
      · cases h
      · rename_i rest hr
        cases h
        rw [List.mem_cons, pagesLoop_mem_iff hr page, hg]
        constructor
        · rintro (rfl | h)
          · exact .inl rfl
          · exact .inr h
        · rintro (h | h)
          · cases h; exact .inl rfl
          · exact .inr h

theorem pagesLoop_total {p : Parser} (hs : p.logPageSize = 4096) (file : Bytes) : ∀ (n i : Nat), (∀ k, k < i + n → k * 4096 < 2 ^ 63) →
    ∃ l, p.pagesLoop file n i = .ok l := by
  intro n
  induction n with
  | zero => exact fun i _ => ⟨[], rfl⟩
  | succ n ih =>
    intro i h
    obtain ⟨l, hl⟩ := ih (i + 1) (fun k hk => h k (by omega))
    obtain ⟨r, hr⟩ := getPage_total hs file (n := i) (h i (by omega))
    unfold Parser.pagesLoop
    rw [hr, hl]
    cases r with
    | none => exact ⟨_, rfl⟩
    | some page => exact ⟨_, rfl⟩

theorem highest_foldl (l : List LogRecordPage) : ∀ (h x : Nat),
    (l.foldl (fun h page => if page.lastLsn > h then page.lastLsn else h) h < x ↔ h < x ∧ ∀ page ∈ l, page.lastLsn < x) := by
  induction l with
  | nil => intro h x; simp
  | cons a l ih =>
    intro h x
    rw [List.foldl_cons, ih]
    simp only [List.forall_mem_cons]
    split <;> constructor <;> rintro ⟨h1, h2⟩ <;> refine ⟨by omega, ?_⟩
    · exact ⟨h1, h2⟩
    · exact h2.2
    · exact ⟨by omega, h2⟩
    · exact h2.2

theorem highestLsn_lt (l : List LogRecordPage) (x : Nat) : highestLsn l < x ↔ 0 < x ∧ ∀ page ∈ l, page.lastLsn < x :=
  highest_foldl l 0 x

theorem getPage_number {p : Parser} {file : Bytes} {n : Nat} {page : LogRecordPage} (h : p.getPage file n = .ok (some page)) :
    page.pageNumber = n := by
  unfold Parser.getPage at h
  split at h
  · cases h
  · split at h
    · cases h
    · split at h
      · rename_i hi
        cases h
        obtain ⟨-, -, -, -, -, -, -, h⟩ := LogRecordPage_init_ok hi
        exact h
      · split at h <;> cases h

theorem fastPagesLoop_eq {p : Parser} (hs : p.logPageSize = 4096) (file : Bytes) (highest : Nat) : ∀ (n i : Nat), (∀ k, k < i + n → k * 4096 < 2 ^ 63) →
    ∃ l, p.fastPagesLoop file highest n i = .ok l ∧ l.Pairwise (fun a b => a.pageNumber < b.pageNumber) ∧
      ∀ page, page ∈ l ↔ ∃ k, i ≤ k ∧ k < i + n ∧ p.getPage file k = .ok (some page) ∧ highest < page.lastLsn := by
  intro n
  induction n with
  | zero => exact fun i _ => ⟨[], rfl, .nil, fun page => ⟨fun h => (nomatch h), fun ⟨k, h1, h2, _⟩ => absurd h1 (by omega)⟩⟩
  | succ n ih =>
    intro i h
    obtain ⟨l, h1, h2, h3⟩ := ih (i + 1) (fun k hk => h k (by omega))
    obtain ⟨r, hr⟩ := getPage_total hs file (n := i) (h i (by omega))
    have hsplit : ∀ page, (∃ k, i ≤ k ∧ k < i + (n + 1) ∧ p.getPage file k = .ok (some page) ∧ highest < page.lastLsn) ↔
        (p.getPage file i = .ok (some page) ∧ highest < page.lastLsn) ∨
        ∃ k, i + 1 ≤ k ∧ k < i + 1 + n ∧ p.getPage file k = .ok (some page) ∧ highest < page.lastLsn := by
      intro page
      constructor
      · rintro ⟨k, g1, g2, g3⟩
        by_cases hk : k = i
        · subst hk; exact .inl g3
        · exact .inr ⟨k, by omega, by omega, g3⟩
      · rintro (h | ⟨k, h1, h2, h3⟩)
        · exact ⟨i, by omega, by omega, h⟩
        · exact ⟨k, by omega, by omega, h3⟩
    unfold Parser.fastPagesLoop
    rw [hr, h1]
    cases r with
    | none =>
      refine ⟨l, rfl, h2, fun page => ?_⟩
      rw [hsplit, h3, hr]
      exact ⟨.inr, fun h => h.resolve_left (fun h => nomatch h.1)⟩
    | some pg =>
      dsimp only
      by_cases hp : pg.lastLsn > highest
      · refine ⟨pg :: l, by rw [if_pos hp], List.pairwise_cons.mpr ⟨fun b hb => ?_, h2⟩, fun page => ?_⟩
        · obtain ⟨k, h1, -, h3, -⟩ := (h3 b).mp hb
          rw [getPage_number hr, getPage_number h3]
          omega
        · rw [hsplit, List.mem_cons, h3, hr]
          constructor
          · rintro (rfl | h)
            · exact .inl ⟨rfl, hp⟩
            · exact .inr h
          · rintro (⟨h, -⟩ | h)
            · cases h; exact .inl rfl
            · exact .inr h
      · refine ⟨l, by rw [if_neg hp], h2, fun page => ?_⟩
        rw [hsplit, h3, hr]
        refine ⟨.inr, fun h => h.resolve_left (fun h => ?_)⟩
        cases h.1
        exact hp h.2

/-- The bytes after writing a list of pages: the last page that covers a position decides. -/
theorem applyPages_bytes : ∀ (l : List LogRecordPage) (s : State) (b : Bytes), s.overlay = some b →
    (∀ page ∈ l, page.endOfUsa ≤ 60 ∧ page.bufProtected.length = 4096) →
    ∃ b', applyPages l s = ({ s with overlay := some b' }, none) ∧ b.length ≤ b'.length ∧ ∀ i,
      (∃ l1 page l2, l = l1 ++ page :: l2 ∧ Covers page.buf i ∧ (∀ x ∈ l2, ¬ Covers x.buf i) ∧
        b'[i]? = page.bufProtected[i - fastOffsetOf page.buf]?) ∨
      ((∀ x ∈ l, ¬ Covers x.buf i) ∧ (i < b.length → b'[i]? = b[i]?))
  | [], s, b, hb, _ => ⟨b, by unfold applyPages; rw [← hb], Nat.le_refl _, fun i => .inr ⟨fun x hx => (nomatch hx), fun _ => rfl⟩⟩
  | page :: rest, s, b, hb, hall => by
    obtain ⟨⟨he, hl⟩, hall⟩ := List.forall_mem_cons.mp hall
    have hoff : fastOffsetOf page.buf < 4294967296 := u32_lt page.buf 60
    have hw : s.write (fastOffsetOf page.buf : Nat) page.bufProtected =
        .ok { s with overlay := some (writeAt b (fastOffsetOf page.buf) page.bufProtected) } := by
      unfold State.write
      rw [if_neg (by omega), if_neg (by rw [hl, Int.toNat_natCast]; omega), hb, Int.toNat_natCast]
    obtain ⟨b', h1, h2, h3⟩ := applyPages_bytes rest { s with overlay := some (writeAt b (fastOffsetOf page.buf) page.bufProtected) } _ rfl hall
    have hlen : b.length ≤ (writeAt b (fastOffsetOf page.buf) page.bufProtected).length := by
      unfold writeAt
      simp only [List.length_append, List.length_take, List.length_drop, zeros_length]
      omega
    refine ⟨b', ?_, by omega, fun i => ?_⟩
    · unfold applyPages LogRecordPage.fileOffset2x
      rw [if_pos he]
      dsimp only
      rw [show ((u32 page.buf 60 : Nat) : Int) = (fastOffsetOf page.buf : Nat) from rfl, hw]
      dsimp only
      rw [h1]
    · rcases h3 i with ⟨l1, q, l2, rfl, a1, a2, a3⟩ | ⟨a1, a2⟩
      · exact .inl ⟨page :: l1, q, l2, rfl, a1, a2, a3⟩
      · by_cases hc : Covers page.buf i
        · refine .inl ⟨[], page, rest, rfl, hc, a1, ?_⟩
          have hlt : i < (writeAt b (fastOffsetOf page.buf) page.bufProtected).length := by
            unfold writeAt
            simp only [List.length_append, List.length_take, List.length_drop, zeros_length]
            have := hc.2
            omega
          rw [a2 hlt, writeAt_getElem?, if_neg (by have := hc.1; omega), if_pos (by have := hc.2; omega)]
        · refine .inr ⟨List.forall_mem_cons.mpr ⟨hc, a1⟩, fun hi => ?_⟩
          rw [a2 (by omega), writeAt_getElem?]
          unfold Covers at hc
          by_cases h : i < fastOffsetOf page.buf
          · rw [if_pos h, if_pos hi]
          · rw [if_neg h, if_neg (by omega)]

/-- The end of the update sequence array of a page, as its header has it. -/
def arrayEnd (raw : Bytes) : Nat := leNat (slice raw 4 6) + leNat (slice raw 6 8) * 2

theorem unprotect_end {b d : Bytes} {e : Nat} (h : unprotectSectors b = .ok (d, e)) : e = arrayEnd b := by
  unfold unprotectSectors at h
  dsimp only at h
  obtain ⟨-, h⟩ := of_ite_error h
  obtain ⟨-, h⟩ := of_ite_error h
  obtain ⟨-, h⟩ := of_ite_error h
  obtain ⟨-, h⟩ := of_ite_error h
  split at h
  · cases h; rfl
  · split at h
    · cases h
    · cases h
    · cases h; rfl

theorem infinitePages_eq {p : Parser} (hs : p.logPageSize = 4096) (hv : p.logVersion.1 ≥ 2) (hsize : p.fileSize < 2 ^ 63) (file : Bytes) :
    ∃ l, p.infinitePages file = .ok l ∧ ∀ page, page ∈ l ↔ ∃ k, 34 ≤ k ∧ k < p.fileSize / 4096 ∧ p.getPage file k = .ok (some page) := by
  unfold Parser.infinitePages Parser.wrappedPage
  rw [if_neg (by omega), if_pos hv]
  dsimp only
  rw [hs]
  by_cases h : p.fileSize / 4096 ≤ 34
  · rw [show p.fileSize / 4096 - 34 = 0 by omega]
    exact ⟨[], rfl, fun page => ⟨fun h => (nomatch h), fun ⟨k, h1, h2, _⟩ => absurd h1 (by omega)⟩⟩
  · obtain ⟨l, hl⟩ := pagesLoop_total hs file (p.fileSize / 4096 - 34) 34 (fun k hk => by omega)
    refine ⟨l, hl, fun page => ?_⟩
    rw [pagesLoop_mem_iff hl]
    constructor
    · rintro ⟨k, h1, h2, h3⟩; exact ⟨k, h1, by omega, h3⟩
    · rintro ⟨k, h1, h2, h3⟩; exact ⟨k, h1, by omega, h3⟩

/-- What is known of a page is what the specification of valid pages says. -/
theorem fastPage_iff {p : Parser} (hs : p.logPageSize = 4096) (hsize : p.fileSize < 2 ^ 63) (file : Bytes) {l : List LogRecordPage}
    (hl : ∀ page, page ∈ l ↔ ∃ k, 34 ≤ k ∧ k < p.fileSize / 4096 ∧ p.getPage file k = .ok (some page)) {n : Nat} (h2 : 2 ≤ n) (h34 : n < 34)
    {page : LogRecordPage} (h : p.getPage file n = .ok (some page)) : highestLsn l < page.lastLsn ↔ FastPage p file n page.buf := by
  rw [highestLsn_lt]
  constructor
  · rintro ⟨a1, a2⟩
    refine ⟨h2, h34, (getPage_iff hs file (by omega) _).mp ⟨page, h, rfl⟩, a1, fun m other b1 b2 b3 => ?_⟩
    obtain ⟨q, hq, rfl⟩ := (getPage_iff hs file (by omega) _).mpr b3
    exact a2 q ((hl q).mpr ⟨m, b1, b2, hq⟩)
  · rintro ⟨-, -, -, a1, a2⟩
    refine ⟨a1, fun q hq => ?_⟩
    obtain ⟨k, b1, b2, b3⟩ := (hl q).mp hq
    exact a2 k q.buf b1 b2 ((getPage_iff hs file (by omega) _).mp ⟨q, b3, rfl⟩)

/-- C76: applying the fast pages puts each of those that are later than the rest of the log where it
records; where several are for the same place, the one with the latest last LSN wins; other places are
left as they were, and so is the original file.  (The array of each must end before the field with
the place, as it does for a page of 4096 bytes.) -/
theorem C76_fast_pages (file0 : Bytes) (p : Parser) (hp : Parser.init file0 = .ok p) (hv : p.logVersion ≠ (1, 1))
    (hsize : file0.length < 2 ^ 63) (s : State) (hs : s.overlay ≠ none)
    (harray : ∀ n buf, FastPage p s.current n buf → arrayEnd (slice s.current (n * 4096) ((n + 1) * 4096)) ≤ 60) :
    ∃ after, p.applyFastPages s = ({ s with overlay := some after }, none) ∧ s.current.length ≤ after.length ∧
    (∀ n buf i, FastPage p s.current n buf → Covers buf i →
      (∀ m other, FastPage p s.current m other → Covers other i →
        lastLsnOf other < lastLsnOf buf ∨ (lastLsnOf other = lastLsnOf buf ∧ m ≤ n)) →
      after[i]? = s.current[n * 4096 + (i - fastOffsetOf buf)]?) ∧
    (∀ i, i < s.current.length → (∀ n buf, FastPage p s.current n buf → ¬ Covers buf i) → after[i]? = s.current[i]?) := by
  obtain ⟨hfs, -, hps, -⟩ := init_facts hp
  have hv2 : p.logVersion.1 ≥ 2 := by
    have := init_version hp
    rcases List.mem_cons.mp this with h | h
    · exact absurd h hv
    rcases List.mem_cons.mp h with h | h
    · rw [h]; decide
    rcases List.mem_cons.mp h with h | h
    · rw [h]; decide
    · cases h
  have hsz : p.fileSize < 2 ^ 63 := by omega
  obtain ⟨b, hb⟩ := Option.ne_none_iff_exists'.mp hs
  have hcur : s.current = b := by unfold State.current; rw [hb]; rfl
  rw [hcur] at harray ⊢
  obtain ⟨inf, hinf, hmem⟩ := infinitePages_eq hps hv2 hsz b
  obtain ⟨fast, hfast, hord, hfmem⟩ := fastPagesLoop_eq hps b (highestLsn inf) 32 2 (fun k hk => by omega)
  have hfm : ∀ page, page ∈ fast ↔ ∃ n, FastPage p b n page.buf ∧ p.getPage b n = .ok (some page) := by
    intro page
    rw [hfmem]
    constructor
    · rintro ⟨k, h1, h2, h3, h4⟩
      exact ⟨k, (fastPage_iff hps hsz b hmem h1 (by omega) h3).mp h4, h3⟩
    · rintro ⟨k, h1, h3⟩
      exact ⟨k, h1.1, by have := h1.2.1; omega, h3, (fastPage_iff hps hsz b hmem h1.1 h1.2.1 h3).mpr h1⟩
  obtain ⟨b', h1, h2, h3⟩ := applyPages_bytes (sortBy (fun page => (page.lastLsn : Int)) fast) s b hb (by
    intro page hpage
    obtain ⟨n, a1, a2⟩ := (hfm page).mp (mem_sortBy.mp hpage)
    have := harray n _ a1
    have g := getPage_some hps a2
    rw [show (n + 1) * 4096 = n * 4096 + 4096 by omega] at this
    rw [unprotect_end g.1, g.2.2.2.2.2.2.2.1, slice_length]
    exact ⟨this, by have := g.2.2.2.2.2.2.1; omega⟩)
  have hst := sortBy_stable (fun page : LogRecordPage => (page.lastLsn : Int)) _ hord
  refine ⟨b', ?_, h2, ?_, ?_⟩
  · unfold Parser.applyFastPages
    rw [if_neg (by omega), hcur, hinf]
    dsimp only
    rw [hfast]
    exact h1
  · intro n buf i hf hcov hlatest
    rcases h3 i with ⟨l1, q, l2, hl, a1, a2, a3⟩ | ⟨a1, -⟩
    · have hqm : q ∈ sortBy (fun page : LogRecordPage => (page.lastLsn : Int)) fast := by rw [hl]; simp
      obtain ⟨m, b1, b2⟩ := (hfm q).mp (mem_sortBy.mp hqm)
      obtain ⟨page, c1, rfl⟩ := (getPage_iff hps b (by have := hf.2.1; omega) _).mpr hf.2.2.1
      have hpm : page ∈ sortBy (fun page : LogRecordPage => (page.lastLsn : Int)) fast := mem_sortBy.mpr ((hfm page).mpr ⟨n, hf, c1⟩)
      have hq := hlatest m _ b1 a1
      have hqp : q = page := by
        rw [hl, List.mem_append, List.mem_cons] at hpm
        rcases hpm with hpm | rfl | hpm
        · rw [hl, List.pairwise_append] at hst
          have := hst.2.2 page hpm q (by simp)
          rw [getPage_number b2, getPage_number c1] at this
          change (lastLsnOf page.buf : Int) < (lastLsnOf q.buf : Int) ∨ ((lastLsnOf page.buf : Int) = (lastLsnOf q.buf : Int) ∧ n < m) at this
          omega
        · rfl
        · exact absurd hcov (a2 page hpm)
      subst hqp
      obtain rfl : m = n := by rw [← getPage_number b2, ← getPage_number c1]
      have g := getPage_some hps c1
      rw [a3, g.2.2.2.2.2.2.2.1, slice_getElem?]
      rw [if_pos (by have := a1.1; have := a1.2; omega)]
    · obtain ⟨page, c1, rfl⟩ := (getPage_iff hps b (by have := hf.2.1; omega) _).mpr hf.2.2.1
      exact absurd hcov (a1 page (mem_sortBy.mpr ((hfm page).mpr ⟨n, hf, c1⟩)))
  · intro i hi hno
    rcases h3 i with ⟨l1, q, l2, hl, a1, a2, a3⟩ | ⟨-, a2⟩
    · have hqm : q ∈ sortBy (fun page : LogRecordPage => (page.lastLsn : Int)) fast := by rw [hl]; simp
      obtain ⟨m, b1, b2⟩ := (hfm q).mp (mem_sortBy.mp hqm)
      exact absurd a1 (hno m _ b1)
    · exact a2 hi

end Verif.Props
