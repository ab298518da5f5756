/-
C57: reading a FAT chain returns the clusters in order, cut to the size.
-/
import Verif.Props.C53_C54
import Verif.Props.C55_C56
namespace Verif.Props
open Verif.FAT Verif.Spec Verif.Spec.FAT

theorem readCluster_ok (v : Volume) (h0 : 0 < v.clusterSize) (hcs : v.clusterSize < 2 ^ 63) (c : Option Nat) (b : Bytes) :
    v.readCluster c = .ok b ↔ Readable v c ∧ b = clusterBytes v c := by
  cases c with
  | none =>
    simp only [Volume.readCluster, Readable, clusterBytes, Except.ok.injEq, true_and]
    exact eq_comm
  | some c =>
    unfold Volume.readCluster Readable clusterBytes
    dsimp only
    rw [show v.dataAreaOffset + (c - 2) * v.clusterSize = clusterPlace v c from rfl]
    generalize clusterPlace v c = o
    by_cases h1 : v.offset + o ≥ 2 ^ 63
    · rw [if_pos h1]
      constructor
      · intro h; cases h
      · intro h; have := h.1.2.2; omega
    · rw [if_neg h1]
      by_cases h2 : v.size.any (o + v.clusterSize > ·) = true
      · rw [if_pos h2]
        constructor
        · intro h; cases h
        · intro h
          cases hs : v.size with
          | none => rw [hs] at h2; cases h2
          | some n =>
            rw [hs] at h2
            simp only [Option.any_some, decide_eq_true_eq] at h2
            have := h.1.1 n hs
            omega
      · rw [if_neg h2]
        have h2' : ∀ n, v.size = some n → o + v.clusterSize ≤ n := by
          intro n hn
          rw [hn] at h2
          simp only [Option.any_some, decide_eq_true_eq] at h2
          omega
        unfold seekRead
        rw [if_neg (by omega)]
        dsimp only
        by_cases h3 : v.offset + o + v.clusterSize ≤ v.object.length
        · rw [if_neg (by rw [slice_length_of_le h3]; omega)]
          simp only [Except.ok.injEq]
          constructor
          · intro h; exact ⟨⟨h2', h3, by omega⟩, h.symm⟩
          · intro h; exact h.2.symm
        · have hlen : (slice v.object (v.offset + o) (v.offset + o + v.clusterSize)).length ≠ v.clusterSize := by
            rw [slice_length]; omega
          rw [if_pos hlen]
          constructor
          · intro h; cases h
          · intro h; exact absurd h.1.2.1 h3

theorem clusterBytes_length {v : Volume} {c : Option Nat} (h : Readable v c) : (clusterBytes v c).length = v.clusterSize := by
  cases c with
  | none => simp [clusterBytes]
  | some c =>
    unfold clusterBytes
    dsimp only
    rw [slice_length_of_le h.2.1]
    omega

theorem ceil_div {n r c : Nat} (hc : 0 < c) (h : r < n) : (n - r + c - 1) / c = (n - (r + c) + c - 1) / c + 1 := by
  by_cases h' : r + c ≤ n
  · rw [show n - r + c - 1 = (n - (r + c) + c - 1) + c by omega, Nat.add_div_right _ hc]
  · rw [show n - (r + c) = 0 by omega, Nat.zero_add, Nat.div_eq_of_lt (by omega : c - 1 < c)]
    rw [show n - r + c - 1 = (n - r - 1) + c by omega, Nat.add_div_right _ hc, Nat.div_eq_of_lt (by omega)]

/-- What is left to read of a file after `r` bytes. -/
def neededFrom (v : Volume) (fileSize : Option Nat) (l : List (Option Nat)) (r : Nat) : List (Option Nat) :=
  match fileSize with
  | none => l
  | some n => l.take ((n - r + v.clusterSize - 1) / v.clusterSize)

theorem readClusters_ok (v : Volume) (h0 : 0 < v.clusterSize) (hcs : v.clusterSize < 2 ^ 63) (fileSize : Option Nat) (l : List (Option Nat)) (r : Nat) (b : Bytes) :
    v.readClusters fileSize l r = .ok b ↔
      (∀ c ∈ neededFrom v fileSize l r, Readable v c) ∧ b = ((neededFrom v fileSize l r).map (clusterBytes v)).flatten := by
  induction l generalizing r b with
  | nil =>
    unfold Volume.readClusters neededFrom
    cases fileSize <;> simp [eq_comm]
  | cons c l ih =>
    unfold Volume.readClusters
    by_cases hstop : fileSize.any (r ≥ ·) = true
    · rw [if_pos hstop]
      have : neededFrom v fileSize (c :: l) r = [] := by
        cases fileSize with
        | none => cases hstop
        | some n =>
          simp only [Option.any_some, decide_eq_true_eq] at hstop
          unfold neededFrom
          dsimp only
          rw [show n - r = 0 by omega, Nat.zero_add, Nat.div_eq_of_lt (by omega)]
          rfl
      rw [this]
      simp [eq_comm]
    · rw [if_neg hstop]
      have hstep : neededFrom v fileSize (c :: l) r = c :: neededFrom v fileSize l (r + v.clusterSize) := by
        cases fileSize with
        | none => rfl
        | some n =>
          simp only [Option.any_some, decide_eq_true_eq] at hstop
          unfold neededFrom
          dsimp only
          rw [ceil_div h0 (by omega)]
          rfl
      rw [hstep]
      cases hc : v.readCluster c with
      | error e =>
        dsimp only
        constructor
        · intro h; cases h
        · intro h
          have := (readCluster_ok v h0 hcs c (clusterBytes v c)).mpr ⟨h.1 c (by simp), rfl⟩
          rw [hc] at this; cases this
      | ok buf =>
        dsimp only
        have hb := (readCluster_ok v h0 hcs c buf).mp hc
        cases hm : v.readClusters fileSize l (r + v.clusterSize) with
        | error e =>
          dsimp only
          constructor
          · intro h; cases h
          · intro h
            have := (ih (r + v.clusterSize) _).mpr ⟨fun c hc => h.1 c (by simp [hc]), rfl⟩
            rw [hm] at this; cases this
        | ok more =>
          dsimp only
          have hm' := (ih (r + v.clusterSize) more).mp hm
          constructor
          · intro h
            cases h
            refine ⟨?_, ?_⟩
            · intro x hx
              rcases List.mem_cons.mp hx with rfl | hx
              · exact hb.1
              · exact hm'.1 x hx
            · rw [List.map_cons, List.flatten_cons, ← hb.2, ← hm'.2]
          · intro h
            rw [h.2, List.map_cons, List.flatten_cons, ← hb.2, ← hm'.2]

/-- C57: what is read for a first cluster is the clusters of its chain, one after the other and as many as the
size asks for, zeros for a bad one, cut to the size.  The reading succeeds exactly when the chain can be
followed and all these clusters are inside the volume. -/
theorem C57_read (v : Volume) (h0 : 0 < v.clusterSize) (hcs : v.clusterSize < 2 ^ 63) (first : Nat) (fileSize : Option Nat) (data : Bytes) :
    v.readChain first fileSize = .ok data ↔
      ∃ l, v.table.chain first = .ok l ∧ (∀ c ∈ needed v fileSize l, Readable v c) ∧
        data = cut fileSize ((needed v fileSize l).map (clusterBytes v)).flatten := by
  unfold Volume.readChain
  cases hch : v.table.chain first with
  | error e =>
    dsimp only
    constructor
    · intro h; cases h
    · rintro ⟨l, h, _⟩; cases h
  | ok l =>
    dsimp only
    have hn : neededFrom v fileSize l 0 = needed v fileSize l := by cases fileSize <;> rfl
    cases hr : v.readClusters fileSize l 0 with
    | error e =>
      dsimp only
      constructor
      · intro h; cases h
      · rintro ⟨l', h, h1, _⟩
        cases h
        have := (readClusters_ok v h0 hcs fileSize l 0 _).mpr ⟨by rw [hn]; exact h1, rfl⟩
        rw [hr] at this; cases this
    | ok buf =>
      have hb := (readClusters_ok v h0 hcs fileSize l 0 buf).mp hr
      rw [hn] at hb
      dsimp only
      constructor
      · intro h
        refine ⟨l, rfl, hb.1, ?_⟩
        rw [← hb.2]
        cases fileSize <;> cases h <;> rfl
      · rintro ⟨l', h, h1, h2⟩
        cases h
        rw [h2, ← hb.2]
        cases fileSize <;> rfl

theorem flatten_length {v : Volume} {l : List (Option Nat)} (h : ∀ c ∈ l, Readable v c) :
    ((l.map (clusterBytes v)).flatten).length = l.length * v.clusterSize := by
  induction l with
  | nil => simp
  | cons c l ih =>
    rw [List.map_cons, List.flatten_cons, List.length_append, ih (fun c hc => h c (by simp [hc])), clusterBytes_length (h c (by simp)), List.length_cons,
      Nat.add_mul]
    omega

theorem take_needed (v : Volume) (h0 : 0 < v.clusterSize) (l : List (Option Nat)) (n : Nat) (h : ∀ c ∈ l, Readable v c) :
    (((l.take ((n + v.clusterSize - 1) / v.clusterSize)).map (clusterBytes v)).flatten).take n = ((l.map (clusterBytes v)).flatten).take n := by
  have hsplit : (l.map (clusterBytes v)).flatten =
      ((l.take ((n + v.clusterSize - 1) / v.clusterSize)).map (clusterBytes v)).flatten ++
      ((l.drop ((n + v.clusterSize - 1) / v.clusterSize)).map (clusterBytes v)).flatten := by
    rw [← List.flatten_append, ← List.map_append, List.take_append_drop]
  rw [hsplit]
  by_cases hl : (n + v.clusterSize - 1) / v.clusterSize ≤ l.length
  · rw [List.take_append_of_le_length]
    rw [flatten_length (fun c hc => h c (List.mem_of_mem_take hc)), List.length_take, Nat.min_eq_left hl]
    have := Nat.lt_div_mul_add (a := n + v.clusterSize - 1) h0
    omega
  · rw [List.drop_eq_nil_of_le (by omega)]
    simp

/-- C57: when the whole chain can be read, a given size cuts the data of the whole chain. -/
theorem C57_size_cuts (v : Volume) (h0 : 0 < v.clusterSize) (hcs : v.clusterSize < 2 ^ 63) (first : Nat) (n : Nat) (whole : Bytes)
    (h : v.readChain first none = .ok whole) : v.readChain first (some n) = .ok (whole.take n) := by
  obtain ⟨l, hl, hr, hw⟩ := (C57_read v h0 hcs first none whole).mp h
  refine (C57_read v h0 hcs first (some n) _).mpr ⟨l, hl, ?_, ?_⟩
  · intro c hc
    exact hr c (List.mem_of_mem_take hc)
  · rw [hw]
    exact (take_needed v h0 l n hr).symm

/-- C57: the length of what is read is a number of whole clusters, or the size if that is less. -/
theorem C57_length (v : Volume) (h0 : 0 < v.clusterSize) (hcs : v.clusterSize < 2 ^ 63) (first : Nat) (l : List (Option Nat)) (data : Bytes)
    (hl : v.table.chain first = .ok l) :
    (v.readChain first none = .ok data → data.length = l.length * v.clusterSize) ∧
    ∀ n, v.readChain first (some n) = .ok data → data.length = min n (l.length * v.clusterSize) := by
  constructor
  · intro h
    obtain ⟨l', hl', hr, hw⟩ := (C57_read v h0 hcs first none data).mp h
    rw [hl] at hl'; cases hl'
    rw [hw]
    exact flatten_length hr
  · intro n h
    obtain ⟨l', hl', hr, hw⟩ := (C57_read v h0 hcs first (some n) data).mp h
    rw [hl] at hl'; cases hl'
    rw [hw, cut, List.length_take, flatten_length hr, needed, List.length_take]
    have hdiv := Nat.lt_div_mul_add (a := n + v.clusterSize - 1) h0
    by_cases hq : (n + v.clusterSize - 1) / v.clusterSize ≤ l.length
    · rw [Nat.min_eq_left hq]
      have := Nat.mul_le_mul_right v.clusterSize hq
      omega
    · rw [show min ((n + v.clusterSize - 1) / v.clusterSize) l.length = l.length from Nat.min_eq_right (by omega)]

/-- C57 for a volume that was opened. -/
theorem C57_opened (object : Bytes) (offset : Nat) (size : Option Nat) (v : Volume) (hv : openVolume object offset size = .ok v)
    (first : Nat) (fileSize : Option Nat) (data : Bytes) :
    v.readChain first fileSize = .ok data ↔
      ∃ l, v.table.chain first = .ok l ∧ (∀ c ∈ needed v fileSize l, Readable v c) ∧
        data = cut fileSize ((needed v fileSize l).map (clusterBytes v)).flatten := by
  have := opened_cluster hv
  exact C57_read v (by omega) (by omega) first fileSize data

/-- A FAT12 volume of 8 sectors: boot sector, table, root directory, clusters 2 to 6; a file in the clusters 2
and 4, and a chain 5 with a bad end. -/
def sampleFAT12 : Bytes :=
  bootSector 512 1 1 1 16 8 1 ++ natLE 512 (pack 12 [0xFF8, 0xFFF, 4, 0, 0xFFF, 0xFF7, 0]) ++ zeros 512 ++
  (List.replicate 512 2 ++ List.replicate 512 3 ++ List.replicate 512 4 ++ List.replicate 512 5 ++ List.replicate 512 6)

def readSample (first : Nat) (fileSize : Option Nat) : Except Exc Bytes :=
  match openVolume sampleFAT12 0 none with
  | .error e => .error e
  | .ok v => v.readChain first fileSize

example : readSample 2 (some 700) = .ok (List.replicate 512 2 ++ List.replicate 188 4) ∧
    readSample 5 none = .ok (List.replicate 512 5 ++ List.replicate 512 0) ∧
    readSample 8 none = .error .FileAllocationTableException := by
  refine ⟨?_, ?_, ?_⟩ <;> decide +kernel

end Verif.Props
