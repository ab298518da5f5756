/-
C55: entries of a FAT12/16/32 table are read exactly.
C56: chains end and are followed exactly.
-/
import Verif.Spec.FAT
import Verif.Proof.Chain
import Verif.Basic.Bits
namespace Verif.Props
open Verif.FAT Verif.Spec Verif.Spec.FAT

theorem leNat_slice {b : Bytes} {i j : Nat} (hij : i ≤ j) (hj : j ≤ b.length) :
    leNat (slice b i j) = leNat b / 256 ^ i % 256 ^ (j - i) := by
  have h1 : b = b.take i ++ (slice b i j ++ b.drop j) := by
    have : slice b i j ++ b.drop j = b.drop i := by
      rw [drop_eq_slice, drop_eq_slice, slice_append_adj b hij hj]
    rw [this, List.take_append_drop]
  have hlen : (slice b i j).length = j - i := slice_length_of_le hj
  have htake : (b.take i).length = i := by rw [List.length_take]; omega
  have h2 : leNat b = leNat (b.take i) + 256 ^ i * (leNat (slice b i j) + 256 ^ (j - i) * leNat (b.drop j)) := by
    conv => lhs; rw [h1]
    rw [leNat_append, leNat_append, htake, hlen]
  have hlt : leNat (b.take i) < 256 ^ i := by have := leNat_lt (b.take i); rwa [htake] at this
  have hlt2 : leNat (slice b i j) < 256 ^ (j - i) := by have := leNat_lt (slice b i j); rwa [hlen] at this
  rw [h2, Nat.add_mul_div_left _ _ (pow256_pos i), Nat.div_eq_of_lt hlt, Nat.zero_add, Nat.add_mul_mod_self_left, Nat.mod_eq_of_lt hlt2]

theorem pow256 (n : Nat) : 256 ^ n = 2 ^ (8 * n) := by rw [Nat.pow_mul]

theorem read_table {t : Table} (hc : Complete t) {o n : Nat} (ho : o + n ≤ t.size) :
    seekRead t.object (t.offset + o) n = .ok (slice (tableBytes t) o (o + n)) ∧ (slice (tableBytes t) o (o + n)).length = n ∧
    leNat (slice (tableBytes t) o (o + n)) = leNat (tableBytes t) / 2 ^ (8 * o) % 2 ^ (8 * n) := by
  have hl : (tableBytes t).length = t.size := by
    unfold tableBytes; rw [slice_length_of_le hc.1]; omega
  refine ⟨?_, ?_, ?_⟩
  · unfold seekRead
    have h1 := hc.2
    rw [if_neg (by omega)]
    unfold tableBytes
    rw [slice_slice _ _ _ _ _ (by omega)]
    rw [Nat.add_assoc]
  · rw [slice_length_of_le (by omega)]; omega
  · rw [leNat_slice (by omega) (by omega), Nat.add_sub_cancel_left, pow256, pow256]

/-- C55: entry `n` of the table, whatever the table contains, is read as the `n`-th digit of `width` bits
(28 bits of it are used for FAT32). -/
theorem C55_entry (t : Table) (n : Nat) (hc : Complete t) (hb : InBounds t n) :
    t.getElement n = .ok (leNat (tableBytes t) / 2 ^ (width t.type * n) % 2 ^ significant t.type) := by
  obtain ⟨h1, h2⟩ := hb
  unfold Table.getElement
  cases ht : t.type with
  | fat32 =>
    rw [ht] at h1; simp only [width] at h1
    dsimp only [width, significant]
    unfold Table.wide
    have ho : n * 4 + 4 ≤ t.size := by omega
    rw [if_neg (by omega)]
    obtain ⟨e1, e2, e3⟩ := read_table hc ho
    rw [e1]; dsimp only
    rw [if_neg (by omega), e3]; dsimp only
    have : (0x0FFFFFFF : Nat) = 2 ^ 28 - 1 := by decide
    rw [this, and_mask, Nat.mod_mod_of_dvd _ (Nat.pow_dvd_pow 2 (by omega)), show 8 * (n * 4) = 32 * n by omega]
  | fat16 =>
    rw [ht] at h1; simp only [width] at h1
    dsimp only [width, significant]
    unfold Table.wide
    have ho : n * 2 + 2 ≤ t.size := by omega
    rw [if_neg (by omega)]
    obtain ⟨e1, e2, e3⟩ := read_table hc ho
    rw [e1]; dsimp only
    rw [if_neg (by omega), e3, show 8 * (n * 2) = 16 * n by omega]
  | fat12 =>
    rw [ht] at h1; simp only [width] at h1
    dsimp only [width, significant]
    have ho : n + n / 2 + 2 ≤ t.size := by omega
    rw [if_neg (by omega)]
    obtain ⟨e1, e2, e3⟩ := read_table hc ho
    rw [e1]; dsimp only
    rw [if_neg (by omega)]
    split
    · rename_i hev
      rw [e3]
      have : (0x0FFF : Nat) = 2 ^ 12 - 1 := by decide
      rw [this, and_mask, Nat.mod_mod_of_dvd _ (Nat.pow_dvd_pow 2 (by omega)), show 8 * (n + n / 2) = 12 * n by omega]
    · rename_i hev
      rw [e3, Nat.shiftRight_eq_div_pow, show 8 * 2 = 4 + 12 by omega, Nat.pow_add 2 4 12, Nat.mod_mul_right_div_self, Nat.div_div_eq_div_mul, ← Nat.pow_add,
        show 8 * (n + n / 2) + 4 = 12 * n by omega]

theorem pack_digit (w : Nat) : ∀ (vs : List Nat) (n : Nat) (hn : n < vs.length), (∀ v ∈ vs, v < 2 ^ w) →
    pack w vs / 2 ^ (w * n) % 2 ^ w = vs[n]
  | v :: vs, 0, _, h => by
    simp only [pack, Nat.mul_zero, Nat.pow_zero, Nat.div_one, List.getElem_cons_zero]
    rw [Nat.add_mul_mod_self_left, Nat.mod_eq_of_lt (h v (by simp))]
  | v :: vs, n + 1, hn, h => by
    have ih := pack_digit w vs n (by simpa using hn) (fun x hx => h x (by simp [hx]))
    rw [List.getElem_cons_succ, ← ih, pack, show w * (n + 1) = w + w * n by rw [Nat.mul_add]; omega, Nat.pow_add, ← Nat.div_div_eq_div_mul,
      Nat.add_mul_div_left _ _ (Nat.pow_pos (by decide)), Nat.div_eq_of_lt (h v (by simp)), Nat.zero_add]

theorem pack_lt (w : Nat) : ∀ (vs : List Nat), (∀ v ∈ vs, v < 2 ^ w) → pack w vs < 2 ^ (w * vs.length)
  | [], _ => by simp [pack]
  | v :: vs, h => by
    have ih := pack_lt w vs (fun x hx => h x (by simp [hx]))
    have hv := h v (by simp)
    rw [pack, List.length_cons, show w * (vs.length + 1) = w + w * vs.length by rw [Nat.mul_add]; omega, Nat.pow_add]
    calc v + 2 ^ w * pack w vs < 2 ^ w + 2 ^ w * pack w vs := by omega
      _ = 2 ^ w * (1 + pack w vs) := by rw [Nat.mul_add]; omega
      _ ≤ 2 ^ w * 2 ^ (w * vs.length) := Nat.mul_le_mul_left _ (by omega)

/-- C55: a table that was written with the values `vs`, one after the other, gives back the `n`-th of
them. -/
theorem C55_written (t : Table) (vs : List Nat) (hc : Complete t) (hv : ∀ v ∈ vs, v < 2 ^ width t.type) (hfit : vs.length * width t.type ≤ 8 * t.size)
    (hw : tableBytes t = natLE t.size (pack (width t.type) vs)) (n : Nat) (hn : n < vs.length) (hlast : (n : Int) ≤ t.lastValidCluster) :
    t.getElement n = .ok (vs[n] % 2 ^ significant t.type) := by
  have hb : InBounds t n := by
    refine ⟨Nat.le_trans ?_ hfit, hlast⟩
    exact Nat.mul_le_mul_right _ hn
  rw [C55_entry t n hc hb, hw, leNat_natLE]
  have hlt : pack (width t.type) vs < 256 ^ t.size := by
    rw [pow256]
    refine Nat.lt_of_lt_of_le (pack_lt _ _ hv) (Nat.pow_le_pow_right (by decide) ?_)
    rw [Nat.mul_comm]; exact hfit
  rw [Nat.mod_eq_of_lt hlt, ← pack_digit _ vs n hn hv]
  congr 1
  rw [Nat.mod_mod_of_dvd]
  exact Nat.pow_dvd_pow 2 (by cases t.type <;> decide)

/-- C55: an entry is refused exactly when it is not in the table. -/
theorem C55_refused (t : Table) (n : Nat) (hc : Complete t) :
    t.getElement n = .error .FileAllocationTableException ↔ ¬ InBounds t n := by
  constructor
  · intro h hb
    rw [C55_entry t n hc hb] at h
    cases h
  · intro h
    unfold InBounds at h
    unfold Table.getElement Table.wide
    cases ht : t.type <;> rw [ht] at h <;> simp only [width] at h <;> dsimp only
    · rw [if_pos (by omega)]
    · rw [if_pos (by omega)]
    · rw [if_pos (by omega)]

/-- A FAT12 table of one sector, with three entries and a few zeros. -/
def sampleTable : Table := ⟨natLE 512 (pack 12 [0xFF8, 0xFFF, 0x003, 0xABC]), 0, 512, 100, .fat12⟩

example : Complete sampleTable ∧ InBounds sampleTable 3 ∧ ¬ InBounds sampleTable 101 ∧
    sampleTable.getElement 3 = .ok 0xABC ∧ sampleTable.getElement 2 = .ok 3 := by
  refine ⟨⟨?_, ?_⟩, ⟨?_, ?_⟩, ?_, ?_, ?_⟩ <;> decide +kernel

/-- The bounds that every table observes: an entry past the last cluster is never returned. -/
theorem getElement_le {t : Table} {c d : Nat} (h : t.getElement c = .ok d) : (c : Int) ≤ t.lastValidCluster := by
  unfold Table.getElement Table.wide at h
  split at h
  · split at h
    · cases h
    · rename_i h'
      split at h'
      · cases h'
      · omega
  · split at h
    · cases h
    · omega
  · split at h
    · cases h
    · omega

theorem isEnd_iff (type : FatType) (v : Nat) : isEnd type v ↔ v ≥ type.eoc ∨ v = 0 ∨ v = 1 := by
  cases type <;> simp only [isEnd, FatType.eoc] <;> omega

theorem badMark_eq (type : FatType) : badMark type = type.bad := by cases type <;> rfl

theorem chainLoop_eq (t : Table) (fuel : Nat) (chain : List Nat) (curr : Nat) :
    t.chainLoop fuel chain curr = follow t.getElement (isEnd t.type) (badMark t.type) fuel chain curr := by
  induction fuel generalizing chain curr with
  | zero => rfl
  | succ n ih =>
    rw [Table.chainLoop, follow]
    cases t.getElement curr with
    | error e => rfl
    | ok next =>
      dsimp only
      rw [badMark_eq, ih]
      have hbad : t.type.bad < t.type.eoc ∧ 1 < t.type.bad := by cases t.type <;> decide
      by_cases h1 : next ∈ chain
      · rw [if_pos h1, if_pos (Or.inl h1)]
      · rw [if_neg h1]
        by_cases h2 : next ≥ t.type.eoc
        · rw [if_pos h2, if_pos (Or.inr ((isEnd_iff _ _).mpr (Or.inl h2)))]
        · rw [if_neg h2]
          by_cases h3 : next = t.type.bad
          · have : ¬ (next ∈ chain ∨ isEnd t.type next) := by
                  rw [isEnd_iff]; rintro (h | h)
                  · exact h1 h
                  · omega
            rw [if_pos h3, if_neg this, if_pos h3]
          · rw [if_neg h3]
            by_cases h4 : next = 0
            · rw [if_pos h4, if_pos (Or.inr ((isEnd_iff _ _).mpr (Or.inr (Or.inl h4))))]
            · rw [if_neg h4]
              by_cases h5 : next = 1
              · rw [if_pos h5, if_pos (Or.inr ((isEnd_iff _ _).mpr (Or.inr (Or.inr h5))))]
              · have : ¬ (next ∈ chain ∨ isEnd t.type next) := by
                  rw [isEnd_iff]; rintro (h | h)
                  · exact h1 h
                  · omega
                rw [if_neg h5, if_neg this, if_neg h3, badMark_eq]

theorem chain_spec (t : Table) {first : Nat} (h0 : 2 ≤ first) (hb : first ≠ badMark t.type) :
    ∃ r, (∀ fuel, t.lastValidCluster.toNat + 2 ≤ fuel → t.chainFuel fuel first = some r) ∧
      (∀ l, r = .ok l ↔ IsChain t.getElement (isEnd t.type) (badMark t.type) first l) ∧
      (∀ e, r = .error e ↔ IsBroken t.getElement (isEnd t.type) (badMark t.type) first e) := by
  have hl : ∀ c d, t.getElement c = .ok d → c ≤ t.lastValidCluster.toNat := by
    intro c d h
    have := getElement_le h
    omega
  have hbe : ¬ isEnd t.type (badMark t.type) := by cases t.type <;> decide
  obtain ⟨r, h1, h2, h3⟩ := follow_spec (entry := t.getElement) hl hb hbe
  refine ⟨r, ?_, h2, h3⟩
  intro fuel hf
  unfold Table.chainFuel
  rw [if_neg (by omega), if_neg (by omega), if_neg (by rw [← badMark_eq]; exact hb), chainLoop_eq]
  exact h1 fuel hf

/-- C56: following a chain ends, for every table (with loops as well) and every first cluster: a number of
rounds is enough that depends on the size of the volume only, and the result does not depend on a larger
bound. -/
theorem C56_terminates (t : Table) (first : Nat) :
    ∃ r, ∀ fuel, t.lastValidCluster.toNat + 2 ≤ fuel → t.chainFuel fuel first = some r ∧ t.chain first = r := by
  have key : ∀ r, (∀ fuel, t.lastValidCluster.toNat + 2 ≤ fuel → t.chainFuel fuel first = some r) →
      ∀ fuel, t.lastValidCluster.toNat + 2 ≤ fuel → t.chainFuel fuel first = some r ∧ t.chain first = r := by
    intro r h fuel hf
    refine ⟨h fuel hf, ?_⟩
    unfold Table.chain
    rw [h _ (Nat.le_refl _)]
    rfl
  by_cases h0 : first = 0
  · exact ⟨_, key (.ok []) fun fuel _ => by unfold Table.chainFuel; rw [if_pos h0]⟩
  by_cases h1 : first = 1
  · exact ⟨_, key (.ok []) fun fuel _ => by unfold Table.chainFuel; rw [if_neg h0, if_pos h1]⟩
  by_cases hb : first = badMark t.type
  · exact ⟨_, key (.error .FileAllocationTableException) fun fuel _ => by
      unfold Table.chainFuel; rw [if_neg h0, if_neg h1, if_pos (by rw [← badMark_eq]; exact hb)]⟩
  · obtain ⟨r, h, _⟩ := chain_spec t (by omega : 2 ≤ first) hb
    exact ⟨r, key r h⟩

/-- C56: the chain is what the table says: the list returned for a first cluster is the one chain that
starts there. -/
theorem C56_followed (t : Table) (first : Nat) (h2 : 2 ≤ first) (hb : first ≠ badMark t.type) (l : List (Option Nat)) :
    t.chain first = .ok l ↔ IsChain t.getElement (isEnd t.type) (badMark t.type) first l := by
  obtain ⟨r, h, hok, _⟩ := chain_spec t h2 hb
  have : t.chain first = r := by unfold Table.chain; rw [h _ (Nat.le_refl _)]; rfl
  rw [this]
  exact hok l

/-- C56: an exception means that a cluster of the chain has no readable entry, or that the first cluster is
the mark of a bad one. -/
theorem C56_error (t : Table) (first : Nat) (e : Exc) :
    t.chain first = .error e ↔
      (first = badMark t.type ∧ e = .FileAllocationTableException) ∨
      (2 ≤ first ∧ first ≠ badMark t.type ∧ IsBroken t.getElement (isEnd t.type) (badMark t.type) first e) := by
  have hbad : 2 ≤ badMark t.type := by cases t.type <;> decide
  by_cases h0 : first = 0 ∨ first = 1
  · have : t.chain first = .ok [] := by
      unfold Table.chain Table.chainFuel
      rcases h0 with h0 | h0
      · rw [if_pos h0]; rfl
      · rw [if_neg (by omega), if_pos h0]; rfl
    rw [this]
    constructor
    · intro h; cases h
    · rintro (⟨h, _⟩ | ⟨h, _⟩)
      · omega
      · omega
  by_cases hb : first = badMark t.type
  · have : t.chain first = .error .FileAllocationTableException := by
      unfold Table.chain Table.chainFuel
      rw [if_neg (by omega), if_neg (by omega), if_pos (by rw [← badMark_eq]; exact hb)]; rfl
    rw [this]
    constructor
    · intro h; cases h; exact Or.inl ⟨hb, rfl⟩
    · rintro (⟨_, h⟩ | ⟨_, h, _⟩)
      · rw [h]
      · exact absurd hb h
  · obtain ⟨r, h, _, herr⟩ := chain_spec t (by omega : 2 ≤ first) hb
    have : t.chain first = r := by unfold Table.chain; rw [h _ (Nat.le_refl _)]; rfl
    rw [this, herr]
    constructor
    · intro h; exact Or.inr ⟨by omega, hb, h⟩
    · rintro (⟨h, _⟩ | ⟨_, _, h⟩)
      · exact absurd h hb
      · exact h

/-- C56: no chain for the two reserved numbers. -/
theorem C56_reserved (t : Table) (first : Nat) (h : first < 2) : t.chain first = .ok [] := by
  unfold Table.chain Table.chainFuel
  by_cases h0 : first = 0
  · rw [if_pos h0]; rfl
  · rw [if_neg h0, if_pos (by omega)]; rfl

/-- C56: every cluster of a chain is a cluster of the volume, no cluster occurs twice, and the mark of a bad
cluster is the last item. -/
theorem C56_clusters (t : Table) (first : Nat) (l : List (Option Nat)) (h : t.chain first = .ok l) :
    (∀ c, some c ∈ l → (c : Int) ≤ t.lastValidCluster ∧ 2 ≤ c) ∧ l.Nodup ∧ (∀ i, l[i]? = some none → i + 1 = l.length) := by
  by_cases h2 : 2 ≤ first
  · have hb : first ≠ badMark t.type := by
      intro hb
      have := (C56_error t first .FileAllocationTableException).mpr (Or.inl ⟨hb, rfl⟩)
      rw [h] at this; cases this
    obtain ⟨cs, last, next, hp, hlast, hnext, hcase⟩ := (C56_followed t first h2 hb l).mp h
    have hmem : ∀ c ∈ cs, (c : Int) ≤ t.lastValidCluster ∧ 2 ≤ c := by
      intro c hc
      obtain ⟨i, hi, rfl⟩ := List.getElem_of_mem hc
      have e1 : cs[i]? = some cs[i] := List.getElem?_eq_getElem hi
      constructor
      · by_cases h' : i + 1 < cs.length
        · exact getElement_le (hp.follows i _ _ e1 (List.getElem?_eq_getElem h')).1
        · rw [List.getLast?_eq_getElem?, show cs.length - 1 = i by omega, e1] at hlast
          cases hlast
          exact getElement_le hnext
      · by_cases h' : i = 0
        · subst h'
          have := hp.starts
          rw [List.head?_eq_getElem?, e1] at this
          cases this; exact h2
        · have e0 : cs[i - 1]? = some cs[i - 1] := List.getElem?_eq_getElem (by omega)
          have := (hp.follows (i - 1) _ cs[i] e0 (by rw [Nat.sub_add_cancel (by omega)]; exact e1)).2.1
          rw [isEnd_iff] at this
          omega
    have hnd : (cs.map some).Nodup := by
      have := hp.noRepeat
      unfold List.Nodup at this ⊢
      rw [List.pairwise_map]
      exact this.imp (fun h h' => h (Option.some.inj h'))
    rcases hcase with ⟨_, _, rfl⟩ | ⟨_, rfl⟩
    · refine ⟨?_, hnd, ?_⟩
      · intro c hc
        obtain ⟨x, hx, hxe⟩ := List.mem_map.mp hc
        cases hxe
        exact hmem c hx
      · intro i hi
        rw [List.getElem?_map] at hi
        cases hh : cs[i]? <;> rw [hh] at hi <;> cases hi
    · refine ⟨?_, ?_, ?_⟩
      · intro c hc
        rw [List.mem_append] at hc
        rcases hc with hc | hc
        · obtain ⟨x, hx, hxe⟩ := List.mem_map.mp hc
          cases hxe
          exact hmem c hx
        · simp at hc
      · rw [List.nodup_append]
        refine ⟨hnd, by simp, ?_⟩
        intro a ha b hb' hab
        simp only [List.mem_singleton] at hb'
        subst hab hb'
        obtain ⟨x, _, hxe⟩ := List.mem_map.mp ha
        cases hxe
      · intro i hi
        rw [List.length_append, List.length_map, List.length_singleton]
        by_cases h' : i < (cs.map some).length
        · rw [List.getElem?_append_left h', List.getElem?_map] at hi
          cases hh : cs[i]? <;> rw [hh] at hi <;> cases hi
        · have : i < (cs.map some ++ [none]).length := by
            rcases List.getElem?_eq_some_iff.mp hi with ⟨hlt, _⟩; exact hlt
          simp only [List.length_append, List.length_map, List.length_singleton] at this h'
          omega
  · rw [C56_reserved t first (by omega)] at h
    cases h
    simp

/-- A FAT16 table with a chain 2 → 3 → 5 → end, a loop 6 → 7 → 6, and 8 → bad. -/
def sampleChains : Table := ⟨natLE 512 (pack 16 [0xFFF8, 0xFFFF, 3, 5, 0, 0xFFFF, 7, 6, 0xFFF7, 300]), 0, 512, 200, .fat16⟩

example : sampleChains.chain 2 = .ok [some 2, some 3, some 5] ∧ sampleChains.chain 6 = .ok [some 6, some 7] ∧
    sampleChains.chain 8 = .ok [some 8, none] ∧ sampleChains.chain 9 = .error .FileAllocationTableException := by
  refine ⟨?_, ?_, ?_, ?_⟩ <;> decide +kernel

end Verif.Props
