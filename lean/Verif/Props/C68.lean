/-
C68: exFAT cluster chains end and are followed exactly; contiguous files; reading the clusters of a file.
-/
import Verif.Spec.ExFATChain
import Verif.Props.C57
import Verif.Props.C65_C66
namespace Verif.Props.ExFAT
open Verif.ExFAT Verif.Spec.ExFAT Verif.Spec

/-- C68: an entry is four bytes of the table, and it is refused when it is not in the table. -/
theorem C68_entry (t : Table) (n v : Nat) : t.getElement n = .ok v ↔ InTable t n ∧ v = u32 t.object (t.offset + 4 * n) := by
  unfold Table.getElement InTable
  by_cases h1 : n * 4 + 4 > t.size ∨ n > t.lastValidCluster
  · rw [if_pos h1]
    exact ⟨(fun h => by cases h), fun h => by omega⟩
  · rw [if_neg h1]
    unfold seekRead
    by_cases h2 : t.offset + n * 4 ≥ 2 ^ 63
    · rw [if_pos (by omega)]
      exact ⟨(fun h => by cases h), fun h => by omega⟩
    · rw [if_neg (by omega)]
      dsimp only
      by_cases h3 : t.offset + 4 * n + 4 ≤ t.object.length
      · rw [if_neg (by rw [slice_length]; omega), Nat.mul_comm n 4]
        constructor
        · intro h; cases h; exact ⟨by omega, rfl⟩
        · rintro ⟨_, rfl⟩; rfl
      · rw [if_pos (by rw [slice_length]; omega)]
        exact ⟨(fun h => by cases h), fun h => absurd h.1.2.2.1 h3⟩

theorem chainLoop_eq (t : Table) (fuel : Nat) (chain : List Nat) (curr : Nat) :
    t.chainLoop fuel chain curr = follow t.getElement isEnd badMark fuel chain curr := by
  induction fuel generalizing chain curr with
  | zero => rfl
  | succ n ih =>
    rw [Table.chainLoop, follow]
    cases t.getElement curr with
    | error e => rfl
    | ok next =>
      dsimp only
      rw [ih]
      unfold isEnd badMark eoc bad
      by_cases h1 : next ∈ chain
      · rw [if_pos h1, if_pos (Or.inl h1)]
      · rw [if_neg h1]
        by_cases h2 : next = 0xFFFFFFFF
        · rw [if_pos h2, if_pos (Or.inr (Or.inl h2))]
        · rw [if_neg h2]
          by_cases h3 : next = 0xFFFFFFF7
          · have : ¬ (next ∈ chain ∨ (next = 0xFFFFFFFF ∨ next < 2)) := by
              rintro (h | h)
              · exact h1 h
              · omega
            rw [if_pos h3, if_neg this, if_pos h3]
          · rw [if_neg h3]
            by_cases h4 : next = 0
            · rw [if_pos h4, if_pos (Or.inr (Or.inr (by omega)))]
            · rw [if_neg h4]
              by_cases h5 : next = 1
              · rw [if_pos h5, if_pos (Or.inr (Or.inr (by omega)))]
              · have : ¬ (next ∈ chain ∨ (next = 0xFFFFFFFF ∨ next < 2)) := by
                  rintro (h | h)
                  · exact h1 h
                  · omega
                rw [if_neg h5, if_neg this, if_neg h3]

theorem chain_spec (t : Table) {first : Nat} (h0 : 2 ≤ first) (hb : first ≠ badMark) :
    ∃ r, (∀ fuel, t.lastValidCluster + 2 ≤ fuel → t.chainFuel fuel first = some r) ∧
      (∀ l, r = .ok l ↔ IsChain t.getElement isEnd badMark first l) ∧
      (∀ e, r = .error e ↔ IsBroken t.getElement isEnd badMark first e) := by
  have hl : ∀ c d, t.getElement c = .ok d → c ≤ t.lastValidCluster := fun c d h => ((C68_entry t c d).mp h).1.2.1
  obtain ⟨r, h1, h2, h3⟩ := follow_spec (entry := t.getElement) (isEnd := isEnd) hl hb (by decide)
  refine ⟨r, ?_, h2, h3⟩
  intro fuel hf
  unfold Table.chainFuel
  rw [if_neg (by omega), if_neg (by omega), if_neg (by exact hb), chainLoop_eq]
  exact h1 fuel hf

/-- C68: following a chain ends, for every table (with loops as well) and every first cluster: a number of rounds is
enough that depends on the size of the volume only, and the result does not depend on a larger bound. -/
theorem C68_terminates (t : Table) (first : Nat) :
    ∃ r, ∀ fuel, t.lastValidCluster + 2 ≤ fuel → t.chainFuel fuel first = some r ∧ t.chain first = r := by
  have key : ∀ r, (∀ fuel, t.lastValidCluster + 2 ≤ fuel → t.chainFuel fuel first = some r) →
      ∀ fuel, t.lastValidCluster + 2 ≤ fuel → t.chainFuel fuel first = some r ∧ t.chain first = r := by
    intro r h fuel hf
    refine ⟨h fuel hf, ?_⟩
    unfold Table.chain
    rw [h _ (Nat.le_refl _)]
    rfl
  by_cases h0 : first = 0
  · exact ⟨_, key (.ok []) fun fuel _ => by unfold Table.chainFuel; rw [if_pos h0]⟩
  by_cases h1 : first = 1
  · exact ⟨_, key (.ok []) fun fuel _ => by unfold Table.chainFuel; rw [if_neg h0, if_pos h1]⟩
  by_cases hb : first = badMark
  · exact ⟨_, key (.error .FileAllocationTableException) fun fuel _ => by
      unfold Table.chainFuel; rw [if_neg h0, if_neg h1, if_pos (by exact hb)]⟩
  · obtain ⟨r, h, _⟩ := chain_spec t (by omega : 2 ≤ first) hb
    exact ⟨r, key r h⟩

/-- C68: the chain is what the table says: the list returned for a first cluster is the one chain that starts
there. -/
theorem C68_followed (t : Table) (first : Nat) (h2 : 2 ≤ first) (hb : first ≠ badMark) (l : List (Option Nat)) :
    t.chain first = .ok l ↔ IsChain t.getElement isEnd badMark first l := by
  obtain ⟨r, h, hok, _⟩ := chain_spec t h2 hb
  have : t.chain first = r := by unfold Table.chain; rw [h _ (Nat.le_refl _)]; rfl
  rw [this]
  exact hok l

/-- C68: no chain for the two reserved numbers. -/
theorem C68_reserved (t : Table) (first : Nat) (h : first < 2) : t.chain first = .ok [] := by
  unfold Table.chain Table.chainFuel
  by_cases h0 : first = 0
  · rw [if_pos h0]; rfl
  · rw [if_neg h0, if_pos (by omega)]; rfl

/-- C68: an exception means that a cluster of the chain has no readable entry, or that the first cluster is the mark
of a bad one. -/
theorem C68_error (t : Table) (first : Nat) (e : Exc) :
    t.chain first = .error e ↔
      (first = badMark ∧ e = .FileAllocationTableException) ∨
      (2 ≤ first ∧ first ≠ badMark ∧ IsBroken t.getElement isEnd badMark first e) := by
  by_cases h0 : first < 2
  · rw [C68_reserved t first h0]
    constructor
    · intro h; cases h
    · rintro (⟨h, _⟩ | ⟨h, _⟩)
      · unfold badMark at h; omega
      · omega
  by_cases hb : first = badMark
  · have : t.chain first = .error .FileAllocationTableException := by
      unfold Table.chain Table.chainFuel
      rw [if_neg (by omega), if_neg (by omega), if_pos (by exact hb)]; rfl
    rw [this]
    constructor
    · intro h; cases h; exact Or.inl ⟨hb, rfl⟩
    · rintro (⟨_, h⟩ | ⟨_, h, _⟩)
      · rw [h]
      · exact absurd hb h
  · obtain ⟨r, h, _, herr⟩ := chain_spec t (by omega : 2 ≤ first) hb
    have : t.chain first = r := by unfold Table.chain; rw [h _ (Nat.le_refl _)]; rfl
    rw [this, herr]
    constructor
    · intro h; exact Or.inr ⟨by omega, hb, h⟩
    · rintro (⟨h, _⟩ | ⟨_, _, h⟩)
      · exact absurd h hb
      · exact h

/-- C68: every cluster of a chain is a cluster of the volume, no cluster occurs twice, and the mark of a bad cluster is
the last item. -/
theorem C68_clusters (t : Table) (first : Nat) (l : List (Option Nat)) (h : t.chain first = .ok l) :
    (∀ c, some c ∈ l → c ≤ t.lastValidCluster ∧ 2 ≤ c) ∧ l.Nodup ∧ (∀ i, l[i]? = some none → i + 1 = l.length) := by
  by_cases h2 : 2 ≤ first
  · have hb : first ≠ badMark := by
      intro hb
      have := (C68_error t first .FileAllocationTableException).mpr (Or.inl ⟨hb, rfl⟩)
      rw [h] at this; cases this
    obtain ⟨cs, last, next, hp, hlast, hnext, hcase⟩ := (C68_followed t first h2 hb l).mp h
    have hle : ∀ c d, t.getElement c = .ok d → c ≤ t.lastValidCluster := fun c d h => ((C68_entry t c d).mp h).1.2.1
    have hmem : ∀ c ∈ cs, c ≤ t.lastValidCluster ∧ 2 ≤ c := by
      intro c hc
      obtain ⟨i, hi, rfl⟩ := List.getElem_of_mem hc
      have e1 : cs[i]? = some cs[i] := List.getElem?_eq_getElem hi
      constructor
      · by_cases h' : i + 1 < cs.length
        · exact hle _ _ (hp.follows i _ _ e1 (List.getElem?_eq_getElem h')).1
        · rw [List.getLast?_eq_getElem?, show cs.length - 1 = i by omega, e1] at hlast
          cases hlast
          exact hle _ _ hnext
      · by_cases h' : i = 0
        · subst h'
          have := hp.starts
          rw [List.head?_eq_getElem?, e1] at this
          cases this; exact h2
        · have e0 : cs[i - 1]? = some cs[i - 1] := List.getElem?_eq_getElem (by omega)
          have := (hp.follows (i - 1) _ cs[i] e0 (by rw [Nat.sub_add_cancel (by omega)]; exact e1)).2.1
          unfold isEnd at this
          omega
    have hnd : (cs.map some).Nodup := by
      have := hp.noRepeat
      unfold List.Nodup at this ⊢
      rw [List.pairwise_map]
      exact this.imp (fun h h' => h (Option.some.inj h'))
    rcases hcase with ⟨_, _, rfl⟩ | ⟨_, rfl⟩
    · refine ⟨?_, hnd, ?_⟩
      · intro c hc
        obtain ⟨x, hx, hxe⟩ := List.mem_map.mp hc
        cases hxe
        exact hmem c hx
      · intro i hi
        rw [List.getElem?_map] at hi
        cases hh : cs[i]? <;> rw [hh] at hi <;> cases hi
    · refine ⟨?_, ?_, ?_⟩
      · intro c hc
        rw [List.mem_append] at hc
        rcases hc with hc | hc
        · obtain ⟨x, hx, hxe⟩ := List.mem_map.mp hc
          cases hxe
          exact hmem c hx
        · simp at hc
      · rw [List.nodup_append]
        refine ⟨hnd, by simp, ?_⟩
        intro a ha b hb' hab
        simp only [List.mem_singleton] at hb'
        subst hab hb'
        obtain ⟨x, _, hxe⟩ := List.mem_map.mp ha
        cases hxe
      · intro i hi
        rw [List.length_append, List.length_map, List.length_singleton]
        by_cases h' : i < (cs.map some).length
        · rw [List.getElem?_append_left h', List.getElem?_map] at hi
          cases hh : cs[i]? <;> rw [hh] at hi <;> cases hi
        · have : i < (cs.map some ++ [none]).length := by
            rcases List.getElem?_eq_some_iff.mp hi with ⟨hlt, _⟩; exact hlt
          simp only [List.length_append, List.length_map, List.length_singleton] at this h'
          omega
  · rw [C68_reserved t first (by omega)] at h
    cases h
    simp

/-! ### Contiguous files -/

theorem contiguousLoop_eq (v : Heap) (h0 : 0 < v.clusterSize) (fuel curr remaining : Nat) (hf : v.lastValidCluster + 1 - curr < fuel) :
    v.contiguousLoop fuel curr remaining =
      some (List.range' curr (min ((remaining + v.clusterSize - 1) / v.clusterSize) (v.lastValidCluster + 1 - curr))) := by
  induction fuel generalizing curr remaining with
  | zero => omega
  | succ n ih =>
    rw [Heap.contiguousLoop]
    by_cases h1 : remaining = 0
    · rw [if_pos h1, h1, Nat.zero_add, Nat.div_eq_of_lt (by omega), Nat.zero_min]; rfl
    · rw [if_neg h1]
      by_cases h2 : curr > v.lastValidCluster
      · rw [if_pos h2, show v.lastValidCluster + 1 - curr = 0 by omega, Nat.min_zero]; rfl
      · rw [if_neg h2, ih _ _ (by omega)]
        have := ceil_div (n := remaining) (r := 0) h0 (by omega)
        rw [Nat.sub_zero, Nat.zero_add] at this
        rw [this, show v.lastValidCluster + 1 - curr = (v.lastValidCluster + 1 - (curr + 1)) + 1 by omega, Nat.add_min_add_right, List.range'_succ]
        rfl

/-- C68: a contiguous file has consecutive clusters from the first one, as many as its size needs and none past the
last cluster of the volume.  The loop ends: a larger bound on the number of rounds changes nothing. -/
theorem C68_contiguous (v : Heap) (h0 : 0 < v.clusterSize) (first fileSize : Nat) :
    v.contiguous first fileSize = run v first fileSize ∧
    ∀ fuel, v.lastValidCluster + 2 ≤ fuel → 2 ≤ first → v.contiguousLoop fuel first fileSize = some (run v first fileSize) := by
  have hloop : ∀ fuel, v.lastValidCluster + 2 ≤ fuel → 2 ≤ first → v.contiguousLoop fuel first fileSize = some (run v first fileSize) := by
    intro fuel hf h2
    rw [contiguousLoop_eq v h0 _ _ _ (by omega)]
    unfold run
    rw [if_neg (by omega)]
  refine ⟨?_, hloop⟩
  unfold Heap.contiguous
  by_cases h : fileSize > 0 ∧ first ≥ 2
  · rw [if_pos h, hloop _ (Nat.le_refl _) h.2]; rfl
  · rw [if_neg h]
    unfold run
    by_cases h2 : first < 2
    · rw [if_pos h2]
    · rw [if_neg h2, show fileSize = 0 by omega, Nat.zero_add, Nat.div_eq_of_lt (by omega), Nat.zero_min]; rfl

/-- C68: every cluster of a contiguous file is a cluster of the volume. -/
theorem C68_contiguous_valid (v : Heap) (h0 : 0 < v.clusterSize) (first fileSize c : Nat) (h : c ∈ v.contiguous first fileSize) :
    2 ≤ c ∧ first ≤ c ∧ c ≤ v.lastValidCluster := by
  rw [(C68_contiguous v h0 first fileSize).1] at h
  unfold run at h
  split at h
  · cases h
  · rw [List.mem_range'_1] at h
    omega

/-! ### Reading -/

/-- The same places in a FAT volume (the loops that read the clusters are the same). -/
def asFAT (h : Heap) : FAT.Volume := ⟨h.object, h.offset, h.size, ⟨[], false⟩, ⟨[], 0, 0, 0, .fat12⟩, h.clusterSize, h.dataAreaOffset⟩

theorem readClusters_asFAT (v : Heap) (fileSize : Option Nat) (l : List (Option Nat)) (r : Nat) :
    v.readClusters fileSize l r = (asFAT v).readClusters fileSize l r := by
  induction l generalizing r with
  | nil => rfl
  | cons c l ih =>
    rw [Heap.readClusters, FAT.Volume.readClusters, ih]
    have : v.readCluster c = (asFAT v).readCluster c := by cases c <;> rfl
    rw [this]
    rfl

theorem readable_asFAT (v : Heap) (c : Option Nat) : FAT.Readable (asFAT v) c ↔ Readable v c := by cases c <;> rfl

theorem clusterBytes_asFAT (v : Heap) : FAT.clusterBytes (asFAT v) = clusterBytes v := by
  funext c; cases c <;> rfl

theorem needed_asFAT (v : Heap) (fileSize : Option Nat) (l : List (Option Nat)) : neededFrom (asFAT v) fileSize l 0 = needed v fileSize l := by
  cases fileSize <;> rfl

/-- C68: what is read of a file is its clusters (those of the chain, or the consecutive ones), one after the other and
as many as the size needs, zeros for a bad one, cut to the size. -/
theorem C68_read (v : Heap) (h0 : 0 < v.clusterSize) (hcs : v.clusterSize < 2 ^ 63) (first : Nat) (fileSize : Option Nat) (noFatChain : Bool) (data : Bytes) :
    v.readChain first fileSize noFatChain = .ok data ↔
      ∃ l, (if noFatChain then ∃ n, fileSize = some n ∧ l = (run v first n).map some else v.table.chain first = .ok l) ∧
        (∀ c ∈ needed v fileSize l, Readable v c) ∧ data = FAT.cut fileSize ((needed v fileSize l).map (clusterBytes v)).flatten := by
  have hclusters : ∀ l, v.clustersOf first fileSize noFatChain = .ok l ↔
      (if noFatChain then ∃ n, fileSize = some n ∧ l = (run v first n).map some else v.table.chain first = .ok l) := by
    intro l
    unfold Heap.clustersOf
    cases noFatChain with
    | false => exact Iff.rfl
    | true =>
      rw [if_neg (by decide), if_pos rfl]
      cases fileSize with
      | none =>
        constructor
        · intro h; cases h
        · rintro ⟨n, h, _⟩; cases h
      | some n =>
        dsimp only
        rw [(C68_contiguous v h0 first n).1]
        constructor
        · intro h; cases h; exact ⟨n, rfl, rfl⟩
        · rintro ⟨m, h, rfl⟩; cases h; rfl
  simp only [← hclusters]
  have key := readClusters_ok (asFAT v) h0 hcs fileSize
  simp only [← readClusters_asFAT, readable_asFAT, clusterBytes_asFAT] at key
  unfold Heap.readChain
  cases hch : v.clustersOf first fileSize noFatChain with
  | error e =>
    dsimp only
    constructor
    · intro h; cases h
    · rintro ⟨l, h, _⟩; cases h
  | ok l =>
    dsimp only
    have k0 := key l 0
    simp only [needed_asFAT] at k0
    cases hr : v.readClusters fileSize l 0 with
    | error e =>
      dsimp only
      constructor
      · intro h; cases h
      · rintro ⟨l', h, h1, _⟩
        cases h
        have := (k0 _).mpr ⟨h1, rfl⟩
        rw [hr] at this; cases this
    | ok buf =>
      have hb := (k0 buf).mp hr
      dsimp only
      constructor
      · intro h
        refine ⟨l, rfl, hb.1, ?_⟩
        rw [← hb.2]
        cases fileSize <;> cases h <;> rfl
      · rintro ⟨l', h, h1, h2⟩
        cases h
        rw [h2, ← hb.2]
        cases fileSize <;> rfl

/-- C68: the clusters of an opened volume have a size that the theorems above ask for. -/
theorem C68_opened (region object : Bytes) (offset : Nat) (size : Option Nat) (br : BR) (v : Heap)
    (hbr : openBR region = .ok br) (hv : openHeap object offset size br = .ok v) : 512 ≤ v.clusterSize ∧ v.clusterSize ≤ 2 ^ 25 := by
  obtain ⟨rfl, _, _, hc⟩ := (C65_accepted region br).mp hbr
  obtain ⟨_, _, _, _, _, h6, _⟩ := (C65_layout region object offset size _ hbr).2 v hv
  rw [h6]
  unfold clusterSectors sectorSize
  rw [← Nat.pow_add]
  have h1 := hc.sector
  have h2 := hc.cluster
  exact ⟨Nat.pow_le_pow_right (n := 2) (i := 9) (by decide) (by omega), Nat.pow_le_pow_right (by decide) (by omega)⟩

/-- A table with a chain 2 → 3 → 5 → end, a loop 6 → 7 → 6, and 8 → bad, 9 → too large. -/
def sampleTable : Table := ⟨natLE 512 (FAT.pack 32 [0xFFFFFFF8, 0xFFFFFFFF, 3, 5, 0, 0xFFFFFFFF, 7, 6, 0xFFFFFFF7, 300]), 0, 512, 20⟩

def sampleHeap : Heap := ⟨(List.range 40).map (fun n => UInt8.ofNat n), 8, none, sampleTable, 4, 12, 6⟩

example : sampleTable.chain 2 = .ok [some 2, some 3, some 5] ∧ sampleTable.chain 6 = .ok [some 6, some 7] ∧
    sampleTable.chain 8 = .ok [some 8, none] ∧ sampleTable.chain 9 = .error .FileAllocationTableException := by
  refine ⟨?_, ?_, ?_, ?_⟩ <;> decide +kernel

example : sampleHeap.contiguous 3 9 = [3, 4, 5] ∧ sampleHeap.contiguous 5 100 = [5, 6] ∧ sampleHeap.contiguous 1 9 = [] ∧
    sampleHeap.readChain 3 (some 5) true = .ok [24, 25, 26, 27, 28] ∧ sampleHeap.readChain 2 (some 7) false = .ok [20, 21, 22, 23, 24, 25, 26] ∧
    sampleHeap.readChain 3 none true = .error .ValueError := by
  refine ⟨?_, ?_, ?_, ?_, ?_, ?_⟩ <;> decide +kernel

end Verif.Props.ExFAT
