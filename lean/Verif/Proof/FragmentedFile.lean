import Verif.Spec.FragmentedFile
namespace Verif.MFT.FragmentedFile
open Verif.Spec.FragmentedFile

theorem clusterMap_cons (o : Option Int) (n : Int) (rest : List Run) (i : Nat) :
    (clusterMap ((o, n) :: rest))[i]? =
      if i < n.toNat then some (o.map (· + (i : Int))) else (clusterMap rest)[i - n.toNat]? := by
  simp only [clusterMap, List.flatMap_cons, List.getElem?_append, List.length_map, List.length_range]
  split
  · rename_i h
    rw [List.getElem?_map, List.getElem?_range h]; rfl
  · rfl

theorem readVirtualClusterLoop_eq (f : FragmentedFile) (vcn : Nat) (runs : List Run) (skipped : Nat)
    (hr : ∀ r ∈ runs, 0 ≤ r.2) (hs : skipped ≤ vcn) :
    f.readVirtualClusterLoop vcn runs skipped =
      match (clusterMap runs)[vcn - skipped]? with
      | none => .error .MasterFileTableException
      | some none => .ok (zeros f.clusterSize)
      | some (some lcn) => f.readCluster lcn := by
  induction runs generalizing skipped with
  | nil => rfl
  | cons r rest ih =>
    obtain ⟨o, n⟩ := r
    have hn : 0 ≤ n := hr (o, n) (by simp)
    rw [clusterMap_cons]
    unfold FragmentedFile.readVirtualClusterLoop
    by_cases h : (skipped : Int) + n ≤ vcn
    · have e : (skipped : Int) + n = ((skipped + n.toNat : Nat) : Int) := by omega
      rw [if_pos h, e, ih _ (fun r hr' => hr r (by simp [hr'])) (by omega), if_neg (by omega),
        show vcn - (skipped + n.toNat) = vcn - skipped - n.toNat by omega]
    · rw [if_neg h, if_pos (by omega)]
      cases o with
      | none => rfl
      | some l =>
        simp only [Option.map_some]
        rw [show (vcn : Int) - skipped = ((vcn - skipped : Nat) : Int) by omega]

theorem readVirtualCluster_eq (f : FragmentedFile) (vcn : Nat) (hr : ∀ r ∈ f.dataRuns, 0 ≤ r.2) :
    f.readVirtualCluster vcn =
      match (clusterMap f.dataRuns)[vcn]? with
      | none => .error .MasterFileTableException
      | some none => .ok (zeros f.clusterSize)
      | some (some lcn) => f.readCluster lcn :=
  readVirtualClusterLoop_eq f vcn f.dataRuns 0 hr (Nat.zero_le _)

/-- A cluster that can be read holds the bytes of the file. -/
theorem readVirtualCluster_byte {f : FragmentedFile} {vcn : Nat} (hr : ∀ r ∈ f.dataRuns, 0 ≤ r.2) {c : Bytes}
    (h : f.readVirtualCluster vcn = .ok c) (i : Nat) (hi : i < f.clusterSize) :
    c[i]? = fileByte f (vcn * f.clusterSize + i) := by
  rw [readVirtualCluster_eq f vcn hr] at h
  have e1 : (vcn * f.clusterSize + i) / f.clusterSize = vcn := by
    rw [Nat.mul_comm, Nat.mul_add_div (by omega), Nat.div_eq_of_lt hi, Nat.add_zero]
  have e2 : (vcn * f.clusterSize + i) % f.clusterSize = i := by
    rw [Nat.mul_comm, Nat.mul_add_mod, Nat.mod_eq_of_lt hi]
  unfold fileByte
  rw [e1, e2]
  split at h
  · cases h
  · cases h
    rename_i heq
    rw [heq]
    simp [zeros, hi]
  · rename_i lcn heq
    rw [heq]
    unfold readCluster at h
    dsimp only at h
    split at h
    · cases h
    split at h
    · cases h
    rename_i data hsr
    obtain ⟨hd, -, -⟩ := of_seekRead hsr
    split at h
    · cases h
    split at h
    · cases h
    cases h
    subst hd
    simp only [volumeByte]
    rw [if_neg (by omega), slice_getElem?, if_pos (by omega)]
    congr 1
    omega

/-- A cluster whose bytes all exist can be read. -/
theorem readVirtualCluster_total {f : FragmentedFile} {vcn : Nat} (hv : f.volume.length < 2 ^ 63) (hcs : 0 < f.clusterSize)
    (hr : ∀ r ∈ f.dataRuns, 0 ≤ r.2)
    (h : ∀ i, i < f.clusterSize → (fileByte f (vcn * f.clusterSize + i)).isSome) :
    ∃ c, f.readVirtualCluster vcn = .ok c := by
  have e1 : ∀ i, i < f.clusterSize → (vcn * f.clusterSize + i) / f.clusterSize = vcn := by
    intro i hi
    rw [Nat.mul_comm, Nat.mul_add_div (by omega), Nat.div_eq_of_lt hi, Nat.add_zero]
  have e2 : ∀ i, i < f.clusterSize → (vcn * f.clusterSize + i) % f.clusterSize = i := by
    intro i hi
    rw [Nat.mul_comm, Nat.mul_add_mod, Nat.mod_eq_of_lt hi]
  rw [readVirtualCluster_eq f vcn hr]
  have h0 := h 0 hcs
  have h1 := h (f.clusterSize - 1) (by omega)
  unfold fileByte at h0 h1
  rw [e1 _ (by omega), e2 _ (by omega)] at h0 h1
  split
  · rename_i heq
    rw [heq] at h0
    cases h0
  · exact ⟨_, rfl⟩
  · rename_i lcn heq
    rw [heq] at h0 h1
    simp only [volumeByte] at h0 h1
    unfold readCluster
    dsimp only
    have hs : ¬ ((f.volumeOffset : Int) + lcn * f.clusterSize < 0) := by
      intro hc
      rw [if_pos (by omega)] at h0; cases h0
    rw [if_neg (by omega)] at h1
    have hl : ((f.volumeOffset : Int) + lcn * f.clusterSize + (f.clusterSize - 1 : Nat)).toNat < f.volume.length := by
      apply Decidable.byContradiction
      intro hc
      rw [List.getElem?_eq_none (by omega)] at h1; cases h1
    rw [if_neg hs, seekRead_ok (by omega) (by omega)]
    dsimp only
    rw [slice_length, if_neg (by omega), if_neg (by omega)]
    exact ⟨_, rfl⟩

section
variable {f : FragmentedFile} (hcs : 0 < f.clusterSize) {pos : Nat}
include hcs

theorem allocatedEnd_ge : f.fileSize ≤ allocatedEnd f := by
  have h1 := Nat.div_add_mod (f.fileSize + f.clusterSize - 1) f.clusterSize
  have h2 := Nat.mod_lt (f.fileSize + f.clusterSize - 1) hcs
  unfold allocatedEnd
  rw [Nat.mul_comm]
  omega

/-- The cluster of a position inside the file ends before the allocated end; if that is where the
file ends too, it is the allocated end. -/
theorem cluster_in_allocated (h : pos < f.fileSize) :
    pos / f.clusterSize * f.clusterSize + f.clusterSize ≤ allocatedEnd f ∧
    (f.fileSize ≤ pos / f.clusterSize * f.clusterSize + f.clusterSize →
      allocatedEnd f = pos / f.clusterSize * f.clusterSize + f.clusterSize) := by
  have h0 := Nat.div_add_mod pos f.clusterSize
  have h0' := Nat.mod_lt pos hcs
  have h1 := Nat.div_add_mod (f.fileSize + f.clusterSize - 1) f.clusterSize
  have h2 := Nat.mod_lt (f.fileSize + f.clusterSize - 1) hcs
  unfold allocatedEnd
  generalize (f.fileSize + f.clusterSize - 1) / f.clusterSize = k at *
  generalize pos / f.clusterSize = q at *
  generalize (f.fileSize + f.clusterSize - 1) % f.clusterSize = r at *
  generalize pos % f.clusterSize = s at *
  generalize f.clusterSize = cs at *
  rw [Nat.mul_comm] at h0 h1
  have hk : q + 1 ≤ k := by
    apply Decidable.byContradiction
    intro hc
    have : k * cs ≤ q * cs := Nat.mul_le_mul_right _ (by omega)
    omega
  have hk' : (q + 1) * cs ≤ k * cs := Nat.mul_le_mul_right _ hk
  rw [Nat.succ_mul] at hk'
  refine ⟨hk', ?_⟩
  intro hle
  have hk2 : k ≤ q + 1 := by
    apply Decidable.byContradiction
    intro hc
    have : (q + 2) * cs ≤ k * cs := Nat.mul_le_mul_right _ (by omega)
    have e : (q + 2) * cs = q * cs + 2 * cs := Nat.add_mul _ _ _
    omega
  have : k = q + 1 := by omega
  rw [this, Nat.succ_mul]
end

/-- A piece of a cluster: what one iteration of `read` gets. -/
theorem piece {f : FragmentedFile} (hr : ∀ r ∈ f.dataRuns, 0 ≤ r.2) {pos k : Nat} {c : Bytes}
    (h : f.readVirtualCluster (pos / f.clusterSize) = .ok c) :
    (slice c (pos % f.clusterSize) (pos % f.clusterSize + k)).length = min k (f.clusterSize - pos % f.clusterSize) ∧
    ∀ i, i < (slice c (pos % f.clusterSize) (pos % f.clusterSize + k)).length →
      (slice c (pos % f.clusterSize) (pos % f.clusterSize + k))[i]? = fileByte f (pos + i) := by
  have hl := readVirtualCluster_length h
  have hlen : (slice c (pos % f.clusterSize) (pos % f.clusterSize + k)).length = min k (f.clusterSize - pos % f.clusterSize) := by
    rw [slice_length, hl]; omega
  refine ⟨hlen, ?_⟩
  intro i hi
  rw [hlen] at hi
  rw [slice_getElem?, if_pos (by omega), readVirtualCluster_byte hr h _ (by omega)]
  have := Nat.div_add_mod pos f.clusterSize
  congr 1
  rw [Nat.mul_comm] at this
  omega

theorem readLoop_ok {f : FragmentedFile} (hcs : 0 < f.clusterSize) (hr : ∀ r ∈ f.dataRuns, 0 ≤ r.2)
    (size : Nat) (data : Bytes) (pos : Nat) (d : Bytes) (pos' : Nat)
    (h : f.readLoop hcs size data pos = (.ok d, pos')) :
    ∃ more, d = data ++ more ∧ pos' = pos + more.length ∧
      more.length = readCount f pos (size - data.length) ∧
      ∀ i, i < more.length → more[i]? = fileByte f (pos + i) := by
  fun_induction FragmentedFile.readLoop f hcs size data pos with
  | case1 data pos hs hp =>
    cases h
    refine ⟨[], by simp, by simp, ?_, by simp⟩
    unfold readCount
    rw [if_neg (by omega)]; rfl
  | case2 => cases h
  | case3 data pos hs hp c hc hpos ih =>
    obtain ⟨more, hd, hpos', hml, hmb⟩ := ih h
    obtain ⟨pl, pb⟩ := piece (k := size - data.length) hr hc
    have hca := cluster_in_allocated hcs (pos := pos) (f := f) (by omega)
    have hdm := Nat.div_add_mod pos f.clusterSize
    rw [Nat.mul_comm] at hdm
    have hml0 := Nat.mod_lt pos hcs
    generalize slice c (pos % f.clusterSize) (pos % f.clusterSize + (size - data.length)) = new at *
    refine ⟨new ++ more, by rw [hd, List.append_assoc], by rw [hpos', List.length_append]; omega, ?_, ?_⟩
    · rw [List.length_append, hml, pl]
      unfold readCount
      rw [List.length_append, pl, if_pos (show pos < f.fileSize by omega)]
      split <;> omega
    · intro i hi
      rw [List.length_append] at hi
      rw [List.getElem?_append]
      split
      · exact pb i (by omega)
      · rw [hmb _ (by omega)]
        congr 1
        omega
  | case4 data pos hs =>
    cases h
    refine ⟨[], by simp, by simp, ?_, by simp⟩
    unfold readCount
    split <;> simp <;> omega

theorem readLoop_total {f : FragmentedFile} (hv : f.volume.length < 2 ^ 63) (hcs : 0 < f.clusterSize) (hr : ∀ r ∈ f.dataRuns, 0 ≤ r.2)
    (hall : ∀ p, p < allocatedEnd f → (fileByte f p).isSome)
    (size : Nat) (data : Bytes) (pos : Nat) : ∃ d pos', f.readLoop hcs size data pos = (.ok d, pos') := by
  fun_induction FragmentedFile.readLoop f hcs size data pos with
  | case1 => exact ⟨_, _, rfl⟩
  | case2 data pos hs hp e he =>
    exfalso
    have hca := cluster_in_allocated hcs (pos := pos) (f := f) (by omega)
    obtain ⟨c, hc⟩ := readVirtualCluster_total (vcn := pos / f.clusterSize) hv hcs hr (fun i hi => hall _ (by omega))
    rw [hc] at he; cases he
  | case3 data pos hs hp c hc hpos ih => exact ih
  | case4 => exact ⟨_, _, rfl⟩

theorem readSize_ok {f : FragmentedFile} (hr : ∀ r ∈ f.dataRuns, 0 ≤ r.2) (pos : Nat) (s : Int) (d : Bytes) (pos' : Nat)
    (h : f.readSize pos s = (.ok d, pos')) :
    pos' = pos + d.length ∧ d.length = readCount f pos s.toNat ∧
      ∀ i, i < d.length → d[i]? = fileByte f (pos + i) := by
  unfold FragmentedFile.readSize at h
  split at h
  · cases h
    rename_i hc
    refine ⟨by simp, ?_, by simp⟩
    unfold readCount
    split
    · rw [show s.toNat = 0 by omega]; simp
    · rfl
  split at h
  · rename_i hc hcs
    split at h
    · cases h
    · rename_i c hrc
      obtain ⟨more, hd, hpos', hml, hmb⟩ := readLoop_ok hcs hr _ _ _ _ _ h
      obtain ⟨pl, pb⟩ := piece (k := s.toNat) hr hrc
      have hca := cluster_in_allocated hcs (pos := pos) (f := f) (by omega)
      have hdm := Nat.div_add_mod pos f.clusterSize
      rw [Nat.mul_comm] at hdm
      have hml0 := Nat.mod_lt pos hcs
      generalize slice c (pos % f.clusterSize) (pos % f.clusterSize + s.toNat) = new at *
      refine ⟨by rw [hpos', hd, List.length_append]; omega, ?_, ?_⟩
      · rw [hd, List.length_append, hml, pl]
        unfold readCount
        rw [if_pos (show pos < f.fileSize by omega)]
        split <;> omega
      · intro i hi
        rw [hd, List.length_append] at hi
        rw [hd, List.getElem?_append]
        split
        · exact pb i (by omega)
        · rw [hmb _ (by omega)]
          congr 1
          omega
  · cases h

theorem readSize_total {f : FragmentedFile} (hv : f.volume.length < 2 ^ 63) (hcs : 0 < f.clusterSize) (hr : ∀ r ∈ f.dataRuns, 0 ≤ r.2)
    (hall : ∀ p, p < allocatedEnd f → (fileByte f p).isSome) (pos : Nat) (s : Int) :
    ∃ d pos', f.readSize pos s = (.ok d, pos') := by
  unfold FragmentedFile.readSize
  split
  · exact ⟨_, _, rfl⟩
  · rename_i hc
    have hca := cluster_in_allocated hcs (pos := pos) (f := f) (by omega)
    obtain ⟨c, hrc⟩ := readVirtualCluster_total (vcn := pos / f.clusterSize) hv hcs hr (fun i hi => hall _ (by omega))
    rw [hrc]
    exact readLoop_total hv hcs hr hall _ _ _

end Verif.MFT.FragmentedFile
