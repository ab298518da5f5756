import Verif.Spec.FileSystem
import Verif.Proof.FileSystem
import Verif.Props.C12_C15
import Verif.Proof.FileRecordSegmentInit
namespace Verif.MFT
open Verif.Spec.FileRecord Verif.Spec.FragmentedFile Verif.Spec.FileSystem Verif.Attributes

/-! ### Nonresident attribute lists -/

theorem fileByte_cons {volume : Bytes} {off cs : Nat} {o : Option Int} {n : Int} {rest : List Run} {fs fs' : Nat} (hcs : 0 < cs) (p : Nat) :
    fileByte ⟨volume, off, cs, (o, n) :: rest, fs⟩ p =
      if p < n.toNat * cs then
        match o with
        | none => some 0
        | some lcn => volumeByte volume (off + lcn * cs + p)
      else fileByte ⟨volume, off, cs, rest, fs'⟩ (p - n.toNat * cs) := by
  unfold fileByte
  dsimp only
  rw [FragmentedFile.clusterMap_cons]
  have hdm := Nat.div_add_mod p cs
  have hm := Nat.mod_lt p hcs
  by_cases h : p < n.toNat * cs
  · have h1 : p / cs < n.toNat := (Nat.div_lt_iff_lt_mul hcs).2 h
    rw [if_pos h1, if_pos h]
    cases o with
    | none => rfl
    | some l =>
      dsimp only [Option.map]
      congr 1
      rw [Int.add_mul]
      generalize p / cs = q at *
      generalize p % cs = r at *
      have e : (cs : Int) * q + r = p := by exact_mod_cast hdm
      rw [Int.mul_comm (q : Int) cs]
      omega
  · have h1 : ¬ p / cs < n.toNat := fun hc => h ((Nat.div_lt_iff_lt_mul hcs).1 hc)
    rw [if_neg h1, if_neg h]
    have e1 : (p - n.toNat * cs) / cs = p / cs - n.toNat := by
      rw [Nat.mul_comm, Nat.sub_mul_div]
    have e2 : (p - n.toNat * cs) % cs = p % cs := by
      rw [Nat.mul_comm, Nat.sub_mul_mod]
      rw [Nat.mul_comm]; omega
    rw [e1, e2]

theorem readRuns_ok {volume : Bytes} {off cs : Nat} (hcs : 0 < cs) {runs : List Run} {acc value : Bytes} {fs : Nat}
    (h : readRuns volume off cs runs acc = .ok value) :
    (∀ r ∈ runs, r.1 ≠ none) ∧ ∃ data, value = acc ++ data ∧ data.length = (clusterMap runs).length * cs ∧
      ∀ i, i < data.length → data[i]? = fileByte ⟨volume, off, cs, runs, fs⟩ i := by
  induction runs generalizing acc with
  | nil =>
    cases h
    exact ⟨by simp, [], by simp, by simp [clusterMap], by simp⟩
  | cons r rest ih =>
    obtain ⟨o, n⟩ := r
    cases o with
    | none => cases h
    | some lcn =>
      unfold readRuns at h
      dsimp only at h
      split at h
      · cases h
      rename_i hneg
      split at h
      · cases h
      rename_i data hsr
      obtain ⟨hd, -, -⟩ := of_seekRead hsr
      split at h
      · cases h
      rename_i hlen
      obtain ⟨h1, more, h2, h3, h4⟩ := ih h
      have hl : data.length = n.toNat * cs := by omega
      refine ⟨?_, data ++ more, by rw [h2, List.append_assoc], ?_, ?_⟩
      · intro r hr
        rcases List.mem_cons.1 hr with rfl | hr
        · simp
        · exact h1 r hr
      · rw [List.length_append, h3, hl]
        simp only [clusterMap, List.flatMap_cons, List.length_append, List.length_map, List.length_range, Nat.add_mul]
      · intro i hi
        rw [List.length_append] at hi
        rw [fileByte_cons (fs' := fs) hcs, List.getElem?_append, hl]
        split
        · dsimp only [volumeByte]
          rw [if_neg (by omega)]
          subst hd
          rw [slice_getElem?, if_pos (by omega)]
          congr 1
          omega
        · exact h4 _ (by omega)

/-! ### Reading the file -/

theorem readAt_bytes {f : FragmentedFile} (hr : ∀ r ∈ f.dataRuns, 0 ≤ r.2) {off n : Nat} {d : Bytes} (h : f.readAt off n = .ok d) :
    d.length = readCount f off n ∧ BytesAt f off d.length d := by
  unfold FragmentedFile.readAt at h
  have h' : f.read off (some n) = (.ok d, (f.read off (some n)).2) := by rw [← h]
  obtain ⟨-, h2, h3⟩ := Props.C12_read_exact f hr off _ _ _ h'
  dsimp only at h2
  rw [if_neg (by omega)] at h2
  exact ⟨h2, rfl, h3⟩

theorem init_length {buf : Bytes} {n : Option Nat} {s : FileRecordSegment} (h : FileRecordSegment.init buf true n = .ok s) :
    buf.length = 1024 ∨ buf.length = 4096 := by
  unfold FileRecordSegment.init at h
  obtain ⟨h, -⟩ := of_ite_error h
  exact mem_sizes.1 (Classical.not_not.1 h)

theorem segmentSize_ok {f : FragmentedFile} (hr : ∀ r ∈ f.dataRuns, 0 ≤ r.2) {size : Nat} (h : f.segmentSize = .ok size) :
    SegmentSize f size := by
  unfold FragmentedFile.segmentSize at h
  split at h
  · cases h
  rename_i sig h1
  split at h
  · cases h
  rename_i h2
  split at h
  · cases h
  rename_i raw h3
  split at h
  · cases h
  rename_i h4
  split at h
  · cases h
  rename_i h5
  split at h
  · cases h
  split at h
  · cases h
  cases h
  obtain ⟨-, b1⟩ := readAt_bytes hr h1
  obtain ⟨-, b2⟩ := readAt_bytes hr h3
  have e : sig = [0x46, 0x49, 0x4C, 0x45] := Classical.not_not.1 h2
  have e4 : raw.length = 4 := Classical.not_not.1 h4
  have e5 : natLE 4 (leNat raw) = raw := by rw [← e4]; exact natLE_leNat raw
  subst e
  refine ⟨b1, ?_, ?_⟩
  · rw [e5]; rw [e4] at b2; exact b2
  · exact mem_sizes.1 (Classical.not_not.1 h5)

theorem segment_ok {f : FragmentedFile} (hr : ∀ r ∈ f.dataRuns, 0 ≤ r.2) {size n : Nat} {s : FileRecordSegment}
    (h : f.segment size n = .ok s) : SegmentAt f size n s := by
  unfold FragmentedFile.segment at h
  split at h
  · cases h
  split at h
  · cases h
  rename_i buf hb
  obtain ⟨h1, h2⟩ := readAt_bytes hr hb
  have h3 := init_length h
  have e : buf.length = min size (allocatedEnd f - n * size) := by
    unfold readCount at h1
    split at h1 <;> omega
  rw [e] at h2
  exact ⟨buf, h2, h⟩

theorem entryNumber_eq (e : AttributeListEntry) : (decodeFileRecordSegmentReference e.segmentReference).1 = entryNumber e := by
  unfold decodeFileRecordSegmentReference entryNumber
  exact and_mask _ 48

theorem AllHold.segments {f : FragmentedFile} (hr : ∀ r ∈ f.dataRuns, 0 ≤ r.2) {es : List AttributeListEntry} {cs : List FileRecordSegment}
    (h : AllHold f es cs) : es = [] ∧ cs = [] ∨ ∃ size, SegmentSize f size ∧ Segments f size es cs := by
  have key : ∀ size, f.segmentSize = .ok size → Segments f size es cs := by
    intro size hs
    induction h with
    | nil => exact .nil
    | cons hh t ih =>
      obtain ⟨size', h1, h2⟩ := hh
      rw [hs] at h1
      cases h1
      exact .cons (by rw [← entryNumber_eq]; exact segment_ok hr h2) ih
  cases h with
  | nil => exact .inl ⟨rfl, rfl⟩
  | cons hh t =>
    obtain ⟨size, h1, -⟩ := hh
    exact .inr ⟨size, segmentSize_ok hr h1, key size h1⟩

/-! ### Nonresident attribute records -/

theorem decodeNonresident_ok {data : Bytes} {pos t len nl no : Nat} {nm : Option Bytes} {a : AttributeRecord}
    (h : decodeNonresident data pos t len nl no nm = .ok a) :
    ∃ n pairs lo hi fs runs, a = .nonresident t n pairs lo hi fs runs ∧ decodeMappingPairs pairs = .ok runs ∧ 0 ≤ fs := by
  unfold decodeNonresident at h
  obtain ⟨-, h⟩ := of_ite_error h
  obtain ⟨-, h⟩ := of_ite_error h
  obtain ⟨-, h⟩ := of_ite_error h
  obtain ⟨h1, h⟩ := of_ite_error h
  split at h
  · cases h
  · rename_i runs hd
    cases h
    exact ⟨_, _, _, _, _, _, rfl, hd, by omega⟩

theorem attributesLoop_nonresident (data : Bytes) (pos : Nat) : ∀ x ∈ (attributesLoop data pos).items,
    ∀ t n pairs lo hi fs runs, x.attr = .nonresident t n pairs lo hi fs runs → decodeMappingPairs pairs = .ok runs ∧ 0 ≤ fs := by
  fun_induction attributesLoop data pos with
  | case3 pos h1 hl h2 h3 a n hd hpos r ih =>
    intro x hx
    rcases List.mem_cons.1 hx with rfl | hx
    · intro t nm pairs lo hi fs runs e
      dsimp only at e
      subst e
      unfold decodeAttribute at hd
      obtain ⟨-, hd⟩ := of_ite_error hd
      split at hd
      · cases hd
      split at hd
      · cases hd
      rename_i a' he
      cases hd
      split at he
      · obtain ⟨_, _, _, _, _, _, e, hd, hf⟩ := decodeNonresident_ok he
        cases e
        exact ⟨hd, hf⟩
      split at he
      · unfold decodeResident at he
        obtain ⟨-, he⟩ := of_ite_error he
        obtain ⟨-, he⟩ := of_ite_error he
        obtain ⟨-, he⟩ := of_ite_error he
        obtain ⟨-, he⟩ := of_ite_error he
        cases he
      · cases he
    · exact ih x hx
  | _ => intro x hx; cases hx

theorem attributesGen_nonresident {s : FileRecordSegment} {t n pairs lo hi fs runs}
    (h : AttributeRecord.nonresident t n pairs lo hi fs runs ∈ s.attributesGen.items) :
    decodeMappingPairs pairs = .ok runs ∧ 0 ≤ fs := by
  obtain ⟨x, hx, e⟩ := List.mem_map.1 h
  exact attributesLoop_nonresident _ _ x hx _ _ _ _ _ _ _ e

end Verif.MFT
