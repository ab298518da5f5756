/-
Property C21: carving file names from slack space (dfir_ntfs/MFT.py:600-736).
-/
import Verif.Model.MFT.SlackSpace
import Verif.Spec.SlackSpace
import Verif.Proof.ParserPaths
namespace Verif.Props
open Verif.MFT Verif.Spec.Parser Verif.Spec.SlackSpace Verif.Attributes

theorem validateFileName_iff (n : Str) : validateFileName n = true ↔ PlausibleName n := by
  unfold validateFileName PlausibleName
  split
  · next h => simp; omega
  · next h =>
    split
    · next h2 =>
      simp
      rintro - - h3
      rcases h2 with h2 | h2
      · contradiction
      · exact h2
    · next h2 =>
      simp only [not_or] at h2
      simp; exact ⟨by omega, by omega, h2.1, h2.2⟩

theorem validateTimestamp_iff (t : Nat) : validateTimestamp t = true ↔ 125 * 10 ^ 15 ≤ t ∧ t ≤ 145 * 10 ^ 15 := by
  unfold validateTimestamp timestampNotBefore timestampNotAfter
  rw [Bool.and_eq_true]
  exact and_congr decide_eq_true_iff decide_eq_true_iff

theorem carveCandidate_eq (value : Bytes) (p : Nat) (h : 8 ≤ p ∨ p = 4 ∨ p = 0) : carveCandidate value p = (p - 8, entryAt value p) := by
  unfold carveCandidate entryAt
  rcases h with h | rfl | rfl
  · rw [if_pos h, if_pos h]
  · rfl
  · rfl

/-- One step of the loop. -/
theorem carveLoop_step (value : Bytes) (p : Nat) : carveLoop value p =
    if p + 32 ≤ value.length then
      haveI := Classical.propDecidable (Plausible value p)
      if Plausible value p then (p - 8, entryAt value p) :: carveLoop value (p + 68) else carveLoop value (p + 2)
    else [] := by
  conv => lhs; unfold carveLoop
  by_cases h32 : p + 32 ≤ value.length
  · have hl : (slice value p (p + 32)).length = 32 := by rw [slice_length]; omega
    rw [if_pos h32, if_pos (show p < value.length by omega)]
    dsimp only
    rw [if_neg (by omega)]
    have hs : ∀ i, i < 4 → slice (slice value p (p + 32)) (8 * i) (8 * i + 8) = slice value (p + 8 * i) (p + 8 * i + 8) := by
      intro i hi
      rw [slice_slice _ _ _ _ _ (by omega)]
      congr 1
    have hts : ([leNat (slice (slice value p (p + 32)) 0 8), leNat (slice (slice value p (p + 32)) 8 16),
        leNat (slice (slice value p (p + 32)) 16 24), leNat (slice (slice value p (p + 32)) 24 32)].all validateTimestamp = true) ↔
        ∀ i, i < 4 → 125 * 10 ^ 15 ≤ leNat (slice value (p + 8 * i) (p + 8 * i + 8)) ∧
          leNat (slice value (p + 8 * i) (p + 8 * i + 8)) ≤ 145 * 10 ^ 15 := by
      have e0 := hs 0 (by omega)
      have e1 := hs 1 (by omega)
      have e2 := hs 2 (by omega)
      have e3 := hs 3 (by omega)
      simp only [Nat.mul_zero, Nat.mul_one, Nat.zero_add, Nat.add_zero, Nat.reduceMul, Nat.reduceAdd] at e0 e1 e2 e3
      simp only [List.all_cons, List.all_nil, Bool.and_true, validateTimestamp_iff, Bool.and_eq_true, e0, e1, e2, e3]
      constructor
      · rintro ⟨h0, h1, h2, h3⟩ i hi
        rcases (show i = 0 ∨ i = 1 ∨ i = 2 ∨ i = 3 by omega) with rfl | rfl | rfl | rfl
        · exact h0
        · exact h1
        · exact h2
        · exact h3
      · intro h
        exact ⟨h 0 (by omega), h 1 (by omega), h 2 (by omega), h 3 (by omega)⟩
    by_cases hc : ([leNat (slice (slice value p (p + 32)) 0 8), leNat (slice (slice value p (p + 32)) 8 16),
        leNat (slice (slice value p (p + 32)) 16 24), leNat (slice (slice value p (p + 32)) 24 32)].all validateTimestamp &&
        (decide (p ≥ 8) || p == 4 || p == 0)) = true
    · rw [if_pos hc]
      rw [Bool.and_eq_true, hts] at hc
      obtain ⟨hc1, hc2⟩ := hc
      have hc2 : 8 ≤ p ∨ p = 4 ∨ p = 0 := by simpa [or_assoc] using hc2
      rw [carveCandidate_eq value p hc2]
      dsimp only
      by_cases hlen : 65 ≤ (entryAt value p).length
      · rw [fileNameName_ok.2 ⟨hlen, rfl⟩]
        dsimp only
        by_cases hp : PlausibleName (nameOf (entryAt value p))
        · rw [if_pos ((validateFileName_iff _).2 hp), if_pos ⟨h32, hc2, hc1, hlen, hp⟩]
        · rw [if_neg (fun h => hp ((validateFileName_iff _).1 h)), if_neg (fun h => hp h.2.2.2.2)]
      · rw [if_neg (fun h => hlen h.2.2.2.1)]
        cases hf : fileNameName (entryAt value p) with
        | error e => rfl
        | ok nm => exact absurd (fileNameName_ok.1 hf).1 hlen
    · rw [if_neg hc, if_neg]
      intro hp
      apply hc
      rw [Bool.and_eq_true, hts]
      exact ⟨hp.2.2.1, by simpa [or_assoc] using hp.2.1⟩
  · rw [if_neg h32]
    split
    · dsimp only
      rw [if_pos]
      rw [slice_length]; omega
    · rfl

/-- The places that the loop reports, from `start` on. -/
theorem carveLoop_spec (value : Bytes) (start : Nat) : ∃ ps : List Nat, carveLoop value start = ps.map (fun p => (p - 8, entryAt value p)) ∧
    ps.Pairwise (fun p q => p + 68 ≤ q) ∧
    ∀ p, p ∈ ps ↔ start ≤ p ∧ p % 2 = start % 2 ∧ Plausible value p ∧ ∀ q ∈ ps, q < p → q + 68 ≤ p := by
  rw [carveLoop_step]
  by_cases h32 : start + 32 ≤ value.length
  · rw [if_pos h32]
    by_cases hp : Plausible value start
    · rw [if_pos hp]
      obtain ⟨ps, e1, e2, e3⟩ := carveLoop_spec value (start + 68)
      refine ⟨start :: ps, by rw [e1]; rfl, List.pairwise_cons.2 ⟨fun q hq => ((e3 q).1 hq).1, e2⟩, ?_⟩
      intro p
      rw [List.mem_cons]
      constructor
      · rintro (rfl | hm)
        · refine ⟨Nat.le_refl _, rfl, hp, ?_⟩
          intro q hq hlt
          rcases List.mem_cons.1 hq with rfl | hq
          · omega
          · have := ((e3 q).1 hq).1; omega
        · obtain ⟨h1, h2, h3, h4⟩ := (e3 p).1 hm
          refine ⟨by omega, by omega, h3, ?_⟩
          intro q hq hlt
          rcases List.mem_cons.1 hq with rfl | hq
          · exact h1
          · exact h4 q hq hlt
      · rintro ⟨h1, h2, h3, h4⟩
        by_cases he : p = start
        · exact .inl he
        · right
          have := h4 start (List.mem_cons_self ..) (by omega)
          exact (e3 p).2 ⟨this, by omega, h3, fun q hq => h4 q (List.mem_cons_of_mem _ hq)⟩
    · rw [if_neg hp]
      obtain ⟨ps, e1, e2, e3⟩ := carveLoop_spec value (start + 2)
      refine ⟨ps, e1, e2, ?_⟩
      intro p
      rw [e3]
      constructor
      · rintro ⟨h1, h2, h3⟩; exact ⟨by omega, by omega, h3⟩
      · rintro ⟨h1, h2, h3⟩
        refine ⟨?_, by omega, h3⟩
        by_cases he : p = start
        · subst he; exact absurd h3.1 hp
        · omega
  · rw [if_neg h32]
    refine ⟨[], rfl, List.Pairwise.nil, ?_⟩
    intro p
    constructor
    · intro h; cases h
    · rintro ⟨h1, -, ⟨h2, -⟩, -⟩; omega
termination_by value.length - start

/-- The reported places in a buffer. -/
def ReportedAt (value : Bytes) (ps : List Nat) : Prop :=
  ps.Pairwise (fun p q => p + 68 ≤ q) ∧
  ∀ p, p ∈ ps ↔ p % 2 = value.length % 2 ∧ Plausible value p ∧ ∀ q ∈ ps, q < p → q + 68 ≤ p

/-- C21 (partial): carving a buffer reports exactly the plausible file name entries: those at the places
from which the number of bytes to the end of the buffer is even, except those that overlap the fixed part of an
entry reported before.  (Carving terminates: the function is total.)  Only part of the property: an
entry that is reported need not lie completely inside the buffer, see `C21_cut_name_reported`. -/
theorem C21_reported_iff_partial (value : Bytes) (yieldPartial : Bool) : ∃ ps, ReportedAt value ps ∧
    (carveInternal value yieldPartial).filterMap (fun c => match c with | .fileName v => some v | .partialName _ => none) =
      ps.map (entryAt value) := by
  unfold carveInternal
  by_cases h8 : value.length ≥ 8
  · rw [if_pos h8]
    dsimp only
    obtain ⟨ps, e1, e2, e3⟩ := carveLoop_spec value (if value.length % 2 ≠ 0 then 1 else 0)
    refine ⟨ps, ⟨e2, ?_⟩, ?_⟩
    · intro p
      rw [e3]
      constructor
      · rintro ⟨h1, h2, h3⟩
        refine ⟨?_, h3⟩
        rw [h2]; split <;> omega
      · rintro ⟨h1, h2⟩
        refine ⟨?_, ?_, h2⟩
        · split <;> omega
        · split <;> omega
    · rw [e1, List.filterMap_append, List.filterMap_map]
      have t1 : ∀ l : List (Nat × Bytes), l.filterMap ((fun c => match c with | .fileName v => some v | .partialName _ => none) ∘
          fun c => Carved.fileName c.2) = l.map (·.2) := by
        intro l
        induction l with
        | nil => rfl
        | cons x l ih => rw [List.filterMap_cons]; simp only [Function.comp]; rw [List.map_cons]; exact congrArg _ ih
      rw [t1, List.map_map]
      have t2 : ∀ o : Option Str, (o.map Carved.partialName).toList.filterMap
          (fun c => match c with | .fileName v => some v | .partialName _ => none) = ([] : List Bytes) := by
        intro o; cases o <;> rfl
      split
      · simp
      · split
        · rw [t2, List.append_nil]; rfl
        · simp
  · rw [if_neg h8]
    refine ⟨[], ⟨List.Pairwise.nil, ?_⟩, rfl⟩
    intro p
    constructor
    · intro h; cases h
    · rintro ⟨-, ⟨h2, -⟩, -⟩; omega

/-- C21 (partial): every file name entry that is reported has four timestamps within the bounds, a
plausible name, and its fixed part and the beginning of its name lie inside the buffer: there is a place
`a` in the buffer where it is, or its first bytes were overwritten and it is at the very start. -/
theorem C21_entries_inside_partial (values : List Bytes) (yieldPartial : Bool) (v : Bytes) (h : Carved.fileName v ∈ carve values yieldPartial) :
    ∃ value ∈ values, 
      ((∃ a, a + 67 ≤ value.length ∧ v = value.drop a) ∨
       (∃ a, (a = 0 ∨ a = 4) ∧ a + 59 ≤ value.length ∧ v = List.replicate 8 0xFF ++ value.drop a)) ∧
      (∀ i, i < 4 → 125 * 10 ^ 15 ≤ leNat (slice v (8 + 8 * i) (16 + 8 * i)) ∧ leNat (slice v (8 + 8 * i) (16 + 8 * i)) ≤ 145 * 10 ^ 15) ∧
      PlausibleName (nameOf v) := by
  unfold carve at h
  rw [List.mem_flatMap] at h
  obtain ⟨value, hv, hmem⟩ := h
  refine ⟨value, hv, ?_⟩
  obtain ⟨ps, ⟨hpw, hps⟩, heq⟩ := C21_reported_iff_partial value yieldPartial
  have : v ∈ ps.map (entryAt value) := by
    rw [← heq, List.mem_filterMap]; exact ⟨_, hmem, rfl⟩
  obtain ⟨p, hp, rfl⟩ := List.mem_map.1 this
  obtain ⟨-, ⟨h1, h2, h3, h4, h5⟩, -⟩ := (hps p).1 hp
  have h67 : 67 ≤ (entryAt value p).length := by
    apply Decidable.byContradiction
    intro hlt
    have : nameOf (entryAt value p) = [] := by
      unfold nameOf
      have : slice (entryAt value p) 66 (66 + 2 * u8 (entryAt value p) 64) = [] := by
        apply List.eq_nil_of_length_eq_zero
        rw [slice_length]; omega
      rw [this]; rfl
    have h6 := h5.1
    rw [this] at h6
    simp at h6
  refine ⟨?_, ?_, h5⟩
  · unfold entryAt at h67 ⊢
    by_cases h8 : 8 ≤ p
    · left
      rw [if_pos h8] at h67 ⊢
      rw [List.length_drop] at h67
      exact ⟨p - 8, by omega, rfl⟩
    · right
      rw [if_neg h8] at h67 ⊢
      rw [List.length_append, List.length_replicate, List.length_drop] at h67
      exact ⟨p, by omega, by omega, rfl⟩
  · intro i hi
    have : slice (entryAt value p) (8 + 8 * i) (16 + 8 * i) = slice value (p + 8 * i) (p + 8 * i + 8) := by
      unfold entryAt
      by_cases h8 : 8 ≤ p
      · rw [if_pos h8]
        unfold slice
        rw [List.drop_drop, show p - 8 + (8 + 8 * i) = p + 8 * i by omega, show 16 + 8 * i - (8 + 8 * i) = p + 8 * i + 8 - (p + 8 * i) by omega]
      · rw [if_neg h8]
        unfold slice
        rw [List.drop_append, List.drop_eq_nil_of_le (by rw [List.length_replicate]; omega), List.nil_append, List.length_replicate, List.drop_drop,
          show p + (8 + 8 * i - 8) = p + 8 * i by omega, show 16 + 8 * i - (8 + 8 * i) = p + 8 * i + 8 - (p + 8 * i) by omega]
    rw [this]
    exact h3 i hi

/-- C21 as stated fails: the name in an entry that is reported may extend beyond the end of the buffer;
it is then cut without notice. -/
theorem C21_cut_name_reported : ∃ value v, Carved.fileName v ∈ carve [value] false ∧ v = value ∧
    66 + 2 * u8 v 64 > value.length ∧ nameOf v = Str.ofString "a" := by
  refine ⟨zeros 8 ++ (natLE 8 (130 * 10 ^ 15) ++ natLE 8 (130 * 10 ^ 15) ++ natLE 8 (130 * 10 ^ 15) ++ natLE 8 (130 * 10 ^ 15)) ++ zeros 24 ++
    [10, 1, 97, 0], _, ?_, rfl, ?_, ?_⟩
  · decide +kernel
  · decide +kernel
  · decide +kernel

/-! ### Partial names -/

theorem mem_printable (c : Nat) : c ∈ carvePrintable ↔ recognizable c := by
  unfold recognizable
  by_cases h : c < 128
  · have : ∀ c, c < 128 → (c ∈ carvePrintable ↔ ((0x20 ≤ c ∧ c < 0x7F ∨ c = 0x09) ∧ c ≠ 0x2F ∧ c ≠ 0x3A ∧ c ≠ 0x5C)) := by decide +kernel
    exact this c h
  · constructor
    · intro hc
      have : ∀ c ∈ carvePrintable, c < 128 := by decide +kernel
      exact absurd (this c hc) h
    · intro hc; omega

/-- `s` is stored at `a`, two bytes per character, before `n`. -/
def StoredAt (value : Bytes) (n a : Nat) (s : Str) : Prop :=
  a + 2 * s.length ≤ n ∧ ∀ i, i < s.length → ∃ c, s[i]? = some c ∧ recognizable c ∧ u8 value (a + 2 * i) = c ∧ u8 value (a + 2 * i + 1) = 0

theorem partialNameLoop_spec (value : Bytes) (n pos a : Nat) (acc : Str) (hacc : StoredAt value n a acc)
    (ha : 0 < pos → acc = [] ∨ a = pos + 2) (hb : pos + 2 ≤ n) : ∃ a', StoredAt value n a' (partialNameLoop value pos acc) := by
  unfold partialNameLoop
  by_cases hp : 0 < pos
  · rw [if_pos hp]
    dsimp only
    by_cases hc : u8 value pos ∈ carvePrintable ∧ u8 value (pos + 1) = 0
    · rw [if_pos hc]
      apply partialNameLoop_spec value n (pos - 2) pos
      · refine ⟨?_, ?_⟩
        · rcases ha hp with rfl | rfl
          · simpa using hb
          · have := hacc.1; rw [List.length_cons]; omega
        · intro i hi
          cases i with
          | zero => exact ⟨_, rfl, (mem_printable _).1 hc.1, rfl, hc.2⟩
          | succ i =>
            rcases ha hp with rfl | rfl
            · simp at hi
            · rw [List.length_cons] at hi
              obtain ⟨c, h1, h2, h3, h4⟩ := hacc.2 i (by omega)
              exact ⟨c, by rw [List.getElem?_cons_succ]; exact h1, h2, by rw [← h3]; congr 1; omega, by rw [← h4]; congr 1; omega⟩
      · intro h; right; omega
      · omega
    · rw [if_neg hc]
      split
      · exact ⟨a, hacc⟩
      · exact partialNameLoop_spec value n (pos - 2) 0 [] ⟨by simp, fun i hi => by simp at hi⟩ (fun _ => .inl rfl) (by omega)
  · rw [if_neg hp]; exact ⟨a, hacc⟩
termination_by pos

theorem skipNulls_le (slack : Bytes) (pos : Nat) : skipNulls slack pos ≤ pos := by
  unfold skipNulls
  split
  · split
    · exact Nat.le_refl _
    · have := skipNulls_le slack (pos - 2); omega
  · exact Nat.le_refl _
termination_by pos

/-- C21: a recognizable part of a name is reported at most once per buffer, after the entries, and only
when asked for; it has at least five recognizable characters and is stored in the buffer, as UTF-16, before the
first entry that was reported. -/
theorem C21_recognizable_name (value : Bytes) (yieldPartial : Bool) :
    ∃ ps, ReportedAt value ps ∧
      (carveInternal value yieldPartial = ps.map (fun p => Carved.fileName (entryAt value p)) ∨
       yieldPartial = true ∧ ∃ first rest s a, ps = first :: rest ∧ 5 ≤ s.length ∧
        carveInternal value yieldPartial = ps.map (fun p => Carved.fileName (entryAt value p)) ++ [.partialName s] ∧
        StoredAt value (first - 8) a s) := by
  unfold carveInternal
  by_cases h8 : value.length ≥ 8
  · rw [if_pos h8]
    dsimp only
    obtain ⟨ps, e1, e2, e3⟩ := carveLoop_spec value (if value.length % 2 ≠ 0 then 1 else 0)
    refine ⟨ps, ⟨e2, ?_⟩, ?_⟩
    · intro p
      rw [e3]
      constructor
      · rintro ⟨h1, h2, h3⟩
        refine ⟨?_, h3⟩
        rw [h2]; split <;> omega
      · rintro ⟨h1, h2⟩
        refine ⟨?_, ?_, h2⟩
        · split <;> omega
        · split <;> omega
    · rw [e1, List.map_map]
      cases ps with
      | nil => exact .inl rfl
      | cons first rest =>
        rw [List.map_cons (f := fun p => (p - 8, entryAt value p))]
        dsimp only
        by_cases hy : yieldPartial = true
        · rw [if_pos hy]
          unfold partialName
          by_cases h10 : first - 8 ≥ 10
          · rw [if_pos h10]
            dsimp only
            by_cases hpos : 0 < skipNulls (value.take (first - 8)) (first - 8 - 2)
            · rw [if_pos hpos]
              by_cases h5 : (partialNameLoop (value.take (first - 8)) (skipNulls (value.take (first - 8)) (first - 8 - 2)) []).length ≥ 5
              · rw [if_pos h5]
                right
                obtain ⟨a, ha⟩ := partialNameLoop_spec (value.take (first - 8)) (first - 8)
                  (skipNulls (value.take (first - 8)) (first - 8 - 2)) 0 [] ⟨by simp, fun i hi => by simp at hi⟩ (fun _ => .inl rfl)
                  (by have := skipNulls_le (value.take (first - 8)) (first - 8 - 2); omega)
                refine ⟨hy, first, rest, _, a, rfl, h5, rfl, ha.1, ?_⟩
                intro i hi
                obtain ⟨c, h1, h2, h3, h4⟩ := ha.2 i hi
                have hu : ∀ k, k + 1 ≤ first - 8 → u8 (value.take (first - 8)) k = u8 value k := by
                  intro k hk
                  unfold u8
                  have : slice (value.take (first - 8)) k (k + 1) = slice value k (k + 1) := by
                    unfold slice
                    rw [List.drop_take, List.take_take]
                    congr 1; omega
                  rw [this]
                have := ha.1
                rw [hu _ (by omega)] at h3 h4
                exact ⟨c, h1, h2, h3, h4⟩
              · rw [if_neg h5]; left; exact List.append_nil _
            · rw [if_neg hpos]; left; exact List.append_nil _
          · rw [if_neg h10]; left; exact List.append_nil _
        · rw [if_neg hy]; left; exact List.append_nil _
  · rw [if_neg h8]
    refine ⟨[], ⟨List.Pairwise.nil, ?_⟩, .inl rfl⟩
    intro p
    constructor
    · intro h; cases h
    · rintro ⟨-, ⟨h2, -⟩, -⟩; omega

theorem no_five {value : Bytes} {n a len b : Nat} (hl : len < 5) (hp : a % 2 = n % 2) (hb : a ≤ b)
    (hr : a + 2 * len = n ∨ ¬ CharAt value (a + 2 * len)) (hn : ∀ b, a + 2 * len ≤ b → ¬ FiveAt value n b) : ¬ FiveAt value n b := by
  intro h
  by_cases hb2 : a + 2 * len ≤ b
  · exact hn b hb2 h
  · obtain ⟨h1, h2, h3, h4⟩ := h
    rcases hr with hr | hr
    · omega
    · have := h4 ((a + 2 * len - b) / 2) (by omega)
      rw [show b + 2 * ((a + 2 * len - b) / 2) = a + 2 * len by omega] at this
      exact hr this

theorem partialNameLoop_last (value slack : Bytes) (n pos a : Nat) (acc : Str) (hu : ∀ q, q + 1 ≤ n → u8 slack q = u8 value q)
    (ha : 0 < a) (hap : a ≤ pos + 2) (hpa : 0 < pos → a = pos + 2) (hp : a % 2 = n % 2) (hn : a + 2 * acc.length ≤ n)
    (hc : ∀ i, i < acc.length → CharAt value (a + 2 * i) ∧ acc[i]? = some (u8 value (a + 2 * i)))
    (hr : a + 2 * acc.length = n ∨ ¬ CharAt value (a + 2 * acc.length)) (hf : ∀ b, a + 2 * acc.length ≤ b → ¬ FiveAt value n b) :
    (∃ a', LastName value n a' (partialNameLoop slack pos acc)) ∨
      (partialNameLoop slack pos acc).length < 5 ∧ ∀ b, ¬ FiveAt value n b := by
  unfold partialNameLoop
  by_cases hpos : 0 < pos
  · have hpa := hpa hpos
    rw [if_pos hpos]
    dsimp only
    rw [hu pos (by omega), hu (pos + 1) (by omega)]
    by_cases hch : u8 value pos ∈ carvePrintable ∧ u8 value (pos + 1) = 0
    · rw [if_pos hch]
      have hlen : pos + 2 * (u8 value pos :: acc).length = a + 2 * acc.length := by rw [List.length_cons]; omega
      refine partialNameLoop_last value slack n (pos - 2) pos _ hu hpos (by omega) (by omega) (by omega) (by omega) ?_
        (by rw [hlen]; exact hr) (by rw [hlen]; exact hf)
      intro i hi
      cases i with
      | zero => exact ⟨⟨(mem_printable _).1 hch.1, hch.2⟩, rfl⟩
      | succ i =>
        rw [List.length_cons] at hi
        have := hc i (by omega)
        rw [List.getElem?_cons_succ, show pos + 2 * (i + 1) = a + 2 * i by omega]
        exact this
    · rw [if_neg hch]
      have hnc : ¬ CharAt value pos := fun h => hch ⟨(mem_printable _).2 h.1, h.2⟩
      by_cases h5 : acc.length ≥ 5
      · rw [if_pos h5]
        exact .inl ⟨a, h5, ha, hp, hn, hc, .inr (by rw [hpa, Nat.add_sub_cancel]; exact hnc), hr, hf⟩
      · rw [if_neg h5]
        refine partialNameLoop_last value slack n (pos - 2) pos [] hu hpos (by omega) (by omega) (by omega) (by simp; omega)
          (fun i hi => absurd hi (Nat.not_lt_zero _)) (.inr hnc) ?_
        intro b hb
        have hb : pos ≤ b := hb
        by_cases hab : a ≤ b
        · exact no_five (by omega) hp hab hr hf
        · intro h
          obtain ⟨h1, h2, h3, h4⟩ := h
          have := h4 0 (by omega)
          rw [show b + 2 * 0 = pos by omega] at this
          exact hnc this
  · rw [if_neg hpos]
    by_cases h5 : acc.length ≥ 5
    · exact .inl ⟨a, h5, ha, hp, hn, hc, .inl (by omega), hr, hf⟩
    · refine .inr ⟨by omega, fun b => ?_⟩
      by_cases hab : a ≤ b
      · exact no_five (by omega) hp hab hr hf
      · rintro ⟨h1, h2, -, -⟩; omega
termination_by pos

theorem partialNameLoop_skip (slack : Bytes) (pos : Nat) (h : pos + 2 ≤ slack.length) :
    partialNameLoop slack (skipNulls slack pos) [] = partialNameLoop slack pos [] := by
  unfold skipNulls
  by_cases hp : 0 < pos
  · rw [if_pos hp]
    by_cases hz : slice slack pos (pos + 2) ≠ [0, 0]
    · rw [if_pos hz]
    · rw [if_neg hz, partialNameLoop_skip slack (pos - 2) (by omega)]
      conv => rhs; unfold partialNameLoop
      rw [if_pos hp]
      dsimp only
      have h0 : u8 slack pos = 0 := by
        have hz := Decidable.not_not.1 hz
        unfold u8
        rw [show slice slack pos (pos + 1) = (slice slack pos (pos + 2)).take 1 by unfold slice; rw [List.take_take]; congr 1; omega, hz]
        decide
      rw [h0, if_neg (fun h => absurd h.1 (by decide +kernel)), if_neg (by simp)]
  · rw [if_neg hp]
termination_by pos

theorem partialName_last (value : Bytes) (n : Nat) (hn : n ≤ value.length) :
    (∃ s a, partialName value n = some s ∧ LastName value n a s) ∨ partialName value n = none ∧ ∀ b, ¬ FiveAt value n b := by
  unfold partialName
  by_cases h10 : n ≥ 10
  · rw [if_pos h10]
    dsimp only
    have hl : (value.take n).length = n := by rw [List.length_take]; omega
    have hu : ∀ q, q + 1 ≤ n → u8 (value.take n) q = u8 value q := by
      intro k hk
      unfold u8
      have : slice (value.take n) k (k + 1) = slice value k (k + 1) := by
        unfold slice
        rw [List.drop_take, List.take_take]
        congr 1; omega
      rw [this]
    have key := partialNameLoop_last value (value.take n) n (n - 2) n [] hu (by omega) (by omega) (by omega) rfl (by simp)
      (fun i hi => absurd hi (Nat.not_lt_zero _)) (.inl rfl) (fun b hb h => by have := h.2.2.1; have hb : n ≤ b := hb; omega)
    rw [← partialNameLoop_skip _ _ (by omega)] at key
    by_cases hpos : 0 < skipNulls (value.take n) (n - 2)
    · rw [if_pos hpos]
      rcases key with ⟨a, ha⟩ | ⟨h1, h2⟩
      · rw [if_pos ha.1]
        exact .inl ⟨_, a, rfl, ha⟩
      · rw [if_neg (by omega)]
        exact .inr ⟨rfl, h2⟩
    · rw [if_neg hpos]
      rw [Nat.eq_zero_of_not_pos hpos, show partialNameLoop (value.take n) 0 [] = [] by unfold partialNameLoop; rfl] at key
      rcases key with ⟨a, ha⟩ | ⟨-, h2⟩
      · exact absurd ha.1 (by decide)
      · exact .inr ⟨rfl, h2⟩
  · rw [if_neg h10]
    exact .inr ⟨rfl, fun b h => by have := h.2.2.1; omega⟩

/-- C21: which part of a name is reported when it is asked for.  With no entry there is none.  Otherwise it is the last sequence of at least
five recognizable characters before the first entry, in its full length; if there is no such sequence, then no part of a name is reported. -/
theorem C21_last_name (value : Bytes) : ∃ ps, ReportedAt value ps ∧
    ((ps = [] ∧ carveInternal value true = []) ∨
     ∃ first rest, ps = first :: rest ∧
      ((∃ s a, LastName value (first - 8) a s ∧
          carveInternal value true = ps.map (fun p => Carved.fileName (entryAt value p)) ++ [.partialName s]) ∨
       (carveInternal value true = ps.map (fun p => Carved.fileName (entryAt value p)) ∧ ∀ b, ¬ FiveAt value (first - 8) b))) := by
  unfold carveInternal
  by_cases h8 : value.length ≥ 8
  · rw [if_pos h8]
    dsimp only
    obtain ⟨ps, e1, e2, e3⟩ := carveLoop_spec value (if value.length % 2 ≠ 0 then 1 else 0)
    refine ⟨ps, ⟨e2, ?_⟩, ?_⟩
    · intro p
      rw [e3]
      constructor
      · rintro ⟨h1, h2, h3⟩
        refine ⟨?_, h3⟩
        rw [h2]; split <;> omega
      · rintro ⟨h1, h2⟩
        refine ⟨?_, ?_, h2⟩
        · split <;> omega
        · split <;> omega
    · rw [e1, List.map_map]
      cases ps with
      | nil => exact .inl ⟨rfl, rfl⟩
      | cons first rest =>
        right
        refine ⟨first, rest, rfl, ?_⟩
        rw [List.map_cons (f := fun p => (p - 8, entryAt value p))]
        dsimp only
        rw [if_pos rfl]
        have hin : first + 32 ≤ value.length := (((e3 first).1 (List.mem_cons_self ..)).2.2).1.1
        rcases partialName_last value (first - 8) (by omega) with ⟨s, a, h1, h2⟩ | ⟨h1, h2⟩
        · rw [h1]
          exact .inl ⟨s, a, h2, rfl⟩
        · rw [h1]
          exact .inr ⟨List.append_nil _, h2⟩
  · rw [if_neg h8]
    refine ⟨[], ⟨List.Pairwise.nil, ?_⟩, .inl ⟨rfl, rfl⟩⟩
    intro p
    constructor
    · intro h; cases h
    · rintro ⟨-, ⟨h2, -⟩, -⟩; omega

/-- A buffer with the end of a name, then two entries. -/
def sampleSlack : Bytes :=
  let entry (c : UInt8) := zeros 8 ++ natLE 8 (130 * 10 ^ 15) ++ natLE 8 (131 * 10 ^ 15) ++ natLE 8 (132 * 10 ^ 15) ++ natLE 8 (145 * 10 ^ 15) ++ zeros 24 ++
    [2, 1, c, 0, c, 0, 0, 0, 0, 0, 0, 0]
  (zeros 4 ++ [104, 0, 101, 0, 108, 0, 108, 0, 111, 0, 0, 0]) ++ entry 97 ++ entry 98

example : (carve [sampleSlack] true).map (fun c => match c with
    | .fileName v => nameOf v
    | .partialName s => s) = [Str.ofString "aa", Str.ofString "bb", Str.ofString "hello"] ∧ (carve [sampleSlack, sampleSlack] false).length = 4 := by
  decide +kernel

/-- A case for `C21_last_name`: the part of a name is the last but one sequence of recognizable characters; the last one has only four of them. -/
example : (carve [[0, 0, 104, 0, 101, 0, 108, 0, 108, 0, 111, 0, 1, 2, 98, 0, 98, 0, 98, 0, 98, 0] ++ sampleSlack.drop 16] true).getLast? =
    some (.partialName (Str.ofString "hello")) := by decide +kernel

end Verif.Props
