/-
Property C134: several objects that read one file object (dfir_ntfs/MFT.py:995-1070, 1319-1367, 1402-1484).
-/
import Verif.Model.MFT.Shared
import Verif.Proof.Parser
import Verif.Proof.SampleMFT
namespace Verif.Props.Shared
open Verif Verif.MFT

/-! ### Fragmented files -/

theorem sharedReadLoop_data (f : FragmentedFile) (hcs : 0 < f.clusterSize) (size : Nat) (data : Bytes) (pos position : Nat) :
    ((f.sharedReadLoop hcs size data pos position).1, (f.sharedReadLoop hcs size data pos position).2.1) = f.readLoop hcs size data pos := by
  unfold FragmentedFile.sharedReadLoop FragmentedFile.readLoop
  by_cases hs : size - data.length > 0
  · rw [dif_pos hs, dif_pos hs]
    by_cases hp : pos ≥ f.fileSize
    · rw [if_pos hp, if_pos hp]
    · rw [if_neg hp, if_neg hp]
      have hd := FragmentedFile.sharedVirtualClusterLoop_data f (pos / f.clusterSize) f.dataRuns 0 position
      have hd : (f.sharedVirtualClusterLoop (pos / f.clusterSize) f.dataRuns 0 position).1 = f.readVirtualCluster (pos / f.clusterSize) := hd
      split
      · next e q h =>
        rw [h] at hd
        split
        · next e' h' =>
          rw [h'] at hd
          cases hd
          rfl
        · next c h' => rw [h'] at hd; cases hd
      · next c q h =>
        rw [h] at hd
        split
        · next e' h' => rw [h'] at hd; cases hd
        · next c' h' =>
          rw [h'] at hd
          cases hd
          have hl := FragmentedFile.readVirtualCluster_length h'
          have hm := Nat.mod_lt pos hcs
          have hpos : 0 < (slice c (pos % f.clusterSize) (pos % f.clusterSize + (size - data.length))).length := by
            rw [slice_length]; omega
          exact sharedReadLoop_data f hcs size _ _ q
  · rw [dif_neg hs, dif_neg hs]
termination_by size - data.length
decreasing_by simp only [List.length_append]; omega

theorem sharedRead_data (f : FragmentedFile) (pos position : Nat) (size : Option Int) :
    ((f.sharedRead pos position size).1, (f.sharedRead pos position size).2.1) = f.read pos size := by
  unfold FragmentedFile.sharedRead FragmentedFile.read FragmentedFile.readSize
  dsimp only
  generalize f.effectiveSize pos size = size
  by_cases h0 : size ≤ 0 ∨ pos ≥ f.fileSize
  · rw [if_pos h0, if_pos h0]
  · rw [if_neg h0, if_neg h0]
    by_cases hcs : 0 < f.clusterSize
    · rw [dif_pos hcs, dif_pos hcs]
      have hd := FragmentedFile.sharedVirtualClusterLoop_data f (pos / f.clusterSize) f.dataRuns 0 position
      have hd : (f.sharedVirtualClusterLoop (pos / f.clusterSize) f.dataRuns 0 position).1 = f.readVirtualCluster (pos / f.clusterSize) := hd
      rw [← hd]
      rcases f.sharedVirtualClusterLoop (pos / f.clusterSize) f.dataRuns 0 position with ⟨⟨e⟩ | ⟨c⟩, q⟩
      · rfl
      · exact sharedReadLoop_data ..
    · rw [dif_neg hcs, dif_neg hcs]

theorem sharedCall_data (f : FragmentedFile) (pos position : Nat) (c : FileCall) :
    ((f.sharedCall pos position c).1, (f.sharedCall pos position c).2.1) = f.call pos c := by
  cases c with
  | seek offset whence =>
    unfold FragmentedFile.sharedCall FragmentedFile.call
    dsimp only
    rcases f.seek pos offset whence with ⟨⟨e⟩ | ⟨n⟩, q⟩ <;> rfl
  | tell => rfl
  | read size =>
    unfold FragmentedFile.sharedCall FragmentedFile.call
    dsimp only
    have h := sharedRead_data f pos position size
    rw [← h]
    rcases f.sharedRead pos position size with ⟨⟨e⟩ | ⟨d⟩, q, r⟩ <;> rfl

/-- The calls of the file number `i` among the steps of a program. -/
def callsOf (i : Nat) (steps : List Step) : List FileCall :=
  steps.filterMap fun s =>
    match s with
    | .file j c => if j = i then some c else none
    | _ => none

/-- The answers that the file number `i` gave. -/
def answersOf (i : Nat) (answers : List (Nat × FileAnswer)) : List FileAnswer :=
  answers.filterMap fun a => if a.1 = i then some a.2 else none

/-- C134: whatever files share one volume object, and whatever else moves and reads it between the calls: each of the files answers as if it were alone
(with a volume object of its own), for every order of the steps. -/
theorem C134_files (volume : Bytes) (files : Nat → FragmentedFile) (offset : Nat → Nat) (position : Nat) (steps : List Step) (i : Nat) :
    answersOf i (runSteps volume files offset position steps) = (files i).calls (offset i) (callsOf i steps) := by
  induction steps generalizing offset position with
  | nil => rfl
  | cons s rest ih =>
    cases s with
    | file j c =>
      have h := sharedCall_data (files j) (offset j) position c
      unfold runSteps answersOf callsOf
      rw [List.filterMap_cons, List.filterMap_cons]
      dsimp only
      by_cases hj : j = i
      · subst hj
        rw [if_pos rfl, if_pos rfl]
        dsimp only
        rw [show (files j).calls (offset j) (c :: rest.filterMap _) =
          ((files j).call (offset j) c).1 :: (files j).calls ((files j).call (offset j) c).2 (rest.filterMap _) from rfl]
        rw [← h]
        dsimp only
        have hrec := ih (fun k => if k = j then ((files j).sharedCall (offset j) position c).2.1 else offset k)
          ((files j).sharedCall (offset j) position c).2.2
        unfold answersOf callsOf at hrec
        rw [hrec, if_pos rfl]
      · rw [if_neg hj, if_neg hj]
        have hrec := ih (fun k => if k = j then ((files j).sharedCall (offset j) position c).2.1 else offset k)
          ((files j).sharedCall (offset j) position c).2.2
        unfold answersOf callsOf at hrec
        rw [if_neg (fun h => hj h.symm)] at hrec
        exact hrec
    | volumeSeek o => exact ih offset _
    | volumeRead n => exact ih offset _

/-- C134: so two programs give a file the same answers when they make the same calls of it, in whatever they differ otherwise. -/
theorem C134_same_calls (volume : Bytes) (files files' : Nat → FragmentedFile) (offset offset' : Nat → Nat) (position position' : Nat)
    (steps steps' : List Step) (i : Nat) (hf : files i = files' i) (ho : offset i = offset' i) (h : callsOf i steps = callsOf i steps') :
    answersOf i (runSteps volume files offset position steps) = answersOf i (runSteps volume files' offset' position' steps') := by
  rw [C134_files, C134_files, h, hf, ho]

/-- Two files of two clusters on a volume of four, each the other's neighbour. -/
def evenFile : FragmentedFile := ⟨[10, 11, 20, 21, 30, 31, 40, 41], 0, 2, [(some 0, 1), (some 2, 1)], 4⟩
def oddFile : FragmentedFile := ⟨[10, 11, 20, 21, 30, 31, 40, 41], 0, 2, [(some 1, 1), (some 3, 1)], 4⟩

/-- The calls of two files in turn, with a seek of the volume object between them. -/
example : runSteps evenFile.volume (fun i => if i = 0 then evenFile else oddFile) (fun _ => 0) 0
    [.file 0 (.read (some 3)), .file 1 (.read (some 3)), .volumeSeek 7, .file 0 (.read none), .volumeRead 5, .file 1 (.read none)] =
    [(0, .data [10, 11, 30]), (1, .data [20, 21, 40]), (0, .data [31]), (1, .data [41])] := by decide +kernel

/-- C134: the volume object is left where the last cluster ended, so a user that goes on reading it without a seek gets other bytes than without the
file. -/
theorem C134_volume_moved : ∃ (f : FragmentedFile), (fileRead f.volume 0 2).1 = .ok [10, 11] ∧
    (f.sharedRead 2 0 (some 2)).1 = .ok [30, 31] ∧ (fileRead f.volume (f.sharedRead 2 0 (some 2)).2.2 2).1 = .ok [40, 41] :=
  ⟨evenFile, by decide +kernel, by decide +kernel, by decide +kernel⟩

/-- C134: the calls must not overlap.  When two threads read two files on one volume object, and one of them seeks (line 1442) between the seek and the read
of the other, this one is given a cluster of the other's file, without an exception. -/
theorem C134_threads : ∃ (f g : FragmentedFile) (p q : Nat), f.volume = g.volume ∧
    f.seekCluster 0 0 = (.ok (), p) ∧ (f.takeCluster p).1 = .ok [10, 11] ∧                -- the thread of `f` alone
    g.seekCluster p 1 = (.ok (), q) ∧ (f.takeCluster q).1 = .ok [20, 21] := by            -- the thread of `g` comes between
  exact ⟨evenFile, oddFile, 0, 2, rfl, by decide +kernel, by decide +kernel, by decide +kernel, by decide +kernel⟩

/-! ### File tables -/

theorem sharedSeekRead_ok (b : Bytes) (position offset n : Nat) (ho : offset < 2 ^ 63) (hn : n < 2 ^ 63) :
    ∃ q, sharedSeekRead b position offset n = (.ok (slice b offset (offset + n)), q) := by
  unfold sharedSeekRead fileSeek
  rw [if_neg (by omega), if_neg (by omega)]
  dsimp only
  unfold fileRead
  rw [if_neg (by omega)]
  exact ⟨_, rfl⟩

/-- A table whose file and segments have sizes that a file object can be asked for. -/
structure Usual (p : Parser) : Prop where
  file : p.file.length < 2 ^ 63
  size : p.size < 2 ^ 63

theorem sharedSegment_data {p : Parser} (hp : Usual p) (position n : Nat) : (p.sharedSegment position n).1 = p.getSegment n := by
  unfold Parser.sharedSegment Parser.getSegment
  by_cases h : n * p.size > p.file.length
  · rw [if_pos h, if_pos h]
  · rw [if_neg h, if_neg h]
    have := hp.file
    obtain ⟨q, hq⟩ := sharedSeekRead_ok p.file position (n * p.size) p.size (by omega) hp.size
    rw [hq]

theorem sharedChildren_data {p : Parser} (hp : Usual p) (l : List Nat) (position : Nat) : (p.sharedChildren l position).1 = p.loadChildren l := by
  induction l generalizing position with
  | nil => rfl
  | cons n l ih =>
    unfold Parser.sharedChildren Parser.loadChildren
    rw [← sharedSegment_data hp position n]
    rcases p.sharedSegment position n with ⟨⟨e⟩ | ⟨f⟩, q⟩
    · rfl
    · dsimp only
      rw [← ih q]
      rcases p.sharedChildren l q with ⟨⟨e⟩ | ⟨fs⟩, r⟩ <;> rfl

theorem sharedAssemble_data {p : Parser} (hp : Usual p) (position : Nat) (f : FileRecordSegment) : (p.sharedAssemble position f).1 = p.assemble f := by
  unfold Parser.sharedAssemble Parser.assemble
  cases f.masterFileTableNumber with
  | none => rfl
  | some mft =>
    dsimp only
    cases cacheGet p.cache (encodeFileRecordSegmentReference mft (effectiveSequenceNumber f)) with
    | none => rfl
    | some ns =>
      dsimp only
      rw [← sharedChildren_data hp ns position]
      rcases p.sharedChildren ns position with ⟨⟨e⟩ | ⟨fs⟩, r⟩ <;> rfl

theorem sharedBaseRecord_data {p : Parser} (hp : Usual p) (position n : Nat) (expected : Option Nat) :
    (p.sharedBaseRecord position n expected).1 = p.getBaseRecord n expected := by
  unfold Parser.sharedBaseRecord Parser.getBaseRecord Parser.getRecordWith
  rw [← sharedSegment_data hp position n]
  rcases p.sharedSegment position n with ⟨⟨e⟩ | ⟨f⟩, q⟩
  · rfl
  · dsimp only
    split
    · split
      · rfl
      · exact sharedAssemble_data hp _ _
    · rfl

theorem sharedRecord_data {p : Parser} (hp : Usual p) (position n : Nat) (expected : Option Nat) :
    (p.sharedRecord position n expected).1 = p.getRecord n expected := by
  unfold Parser.sharedRecord Parser.getRecord Parser.getRecordWith
  rw [← sharedSegment_data hp position n]
  rcases p.sharedSegment position n with ⟨⟨e⟩ | ⟨f⟩, q⟩
  · rfl
  · dsimp only
    split
    · split
      · rfl
      · exact sharedAssemble_data hp _ _
    · split
      · rfl
      · cases p.cache.find? (fun e => e.2.contains n) with
        | none => rfl
        | some e => exact sharedBaseRecord_data hp _ _ _

/-- The next record and the rest of the list. -/
theorem nextRecord_data {p : Parser} (hp : Usual p) (inUseOnly : Bool) (position i : Nat) :
    (match (p.nextRecord inUseOnly position i).1 with
      | .done => fileRecordsLoop p inUseOnly i = .done
      | .raised e => fileRecordsLoop p inUseOnly i = .fail e
      | .item r j => fileRecordsLoop p inUseOnly i = .cons r (fileRecordsLoop p inUseOnly j) ∧ i < j ∧ (j - 1) * p.size < p.file.length) := by
  generalize hg : fileRecordsLoop p inUseOnly i = g
  rw [fileRecordsLoop] at hg
  subst hg
  unfold Parser.nextRecord
  by_cases hlt : i * p.size < p.file.length ∧ 0 < p.size
  · rw [if_pos hlt, if_pos hlt]
    have hl := hp.file
    have hdec : p.file.length - (i + 1) * p.size < p.file.length - i * p.size := by rw [Nat.add_mul]; omega
    obtain ⟨q, hq⟩ := sharedSeekRead_ok p.file position (i * p.size) p.size (by omega) hp.size
    rw [hq]
    dsimp only
    have hrec := fun q => nextRecord_data hp inUseOnly q (i + 1)
    have hrec' : ∀ q, (match (p.nextRecord inUseOnly q (i + 1)).1 with
        | .done => fileRecordsLoop p inUseOnly (i + 1) = .done
        | .raised e => fileRecordsLoop p inUseOnly (i + 1) = .fail e
        | .item r j => fileRecordsLoop p inUseOnly (i + 1) = .cons r (fileRecordsLoop p inUseOnly j) ∧ i < j ∧ (j - 1) * p.size < p.file.length) := by
      intro q
      have h := hrec q
      split at h
      · exact h
      · exact h
      · exact ⟨h.1, by omega, h.2.2⟩
    by_cases hb : (slice p.file (i * p.size) (i * p.size + p.size)).length ≠ p.size
    · rw [if_pos hb, if_pos hb]
    · rw [if_neg hb, if_neg hb]
      cases hinit : FileRecordSegment.init (slice p.file (i * p.size) (i * p.size + p.size)) true (some i) with
      | error e =>
        dsimp only
        by_cases he : isFrsExc e = true
        · rw [if_pos he, if_pos he]; exact hrec' _
        · rw [if_neg he, if_neg he]
      | ok f =>
        dsimp only
        by_cases hu : inUseOnly = true ∧ ¬ f.isInUse = true
        · rw [if_pos hu, if_pos hu]; exact hrec' _
        · rw [if_neg hu, if_neg hu]
          by_cases hbase : f.isBaseFileRecordSegment = true
          · rw [if_pos hbase, if_pos hbase, ← sharedAssemble_data hp q f]
            rcases p.sharedAssemble q f with ⟨⟨e⟩ | ⟨r⟩, s⟩
            · rfl
            · refine ⟨rfl, by omega, ?_⟩
              rw [Nat.add_sub_cancel]
              exact hlt.1
          · rw [if_neg hbase, if_neg hbase]; exact hrec' _
  · rw [if_neg hlt, if_neg hlt]
termination_by p.file.length - i * p.size

theorem recordsAmong_eq {p : Parser} (hp : Usual p) (hs : 0 < p.size) (inUseOnly : Bool) (elsewhere : Nat → Nat) :
    ∀ fuel k i, p.file.length + 1 - i * p.size < fuel →
      p.recordsAmong inUseOnly elsewhere fuel k i = some (fileRecordsLoop p inUseOnly i) := by
  intro fuel
  induction fuel with
  | zero => intro k i h; omega
  | succ fuel ih =>
    intro k i h
    unfold Parser.recordsAmong
    have hn := nextRecord_data hp inUseOnly (elsewhere k) i
    cases hx : (p.nextRecord inUseOnly (elsewhere k) i).1 with
    | done => rw [hx] at hn; dsimp only at hn ⊢; rw [hn]
    | raised e => rw [hx] at hn; dsimp only at hn ⊢; rw [hn]
    | item r j =>
      rw [hx] at hn
      dsimp only at hn ⊢
      obtain ⟨h1, h2, h3⟩ := hn
      have hj : j * p.size = (j - 1) * p.size + p.size := by
        rw [← Nat.succ_mul]
        congr 1
        omega
      have hle : i * p.size ≤ (j - 1) * p.size := Nat.mul_le_mul_right _ (by omega)
      rw [ih (k + 1) j (by omega), h1]
      rfl

/-- C134: the list of file records that a loop gets does not depend on what its body does to the file object between the records (other look-ups, other
lists, reads by others): for all positions `elsewhere k` in which the file object can be when the list is continued for the `k`-th time, it is the list
of the file records of the table. -/
theorem C134_records (file : Bytes) (p : Parser) (doFirstPass : Bool) (h : Parser.init file doFirstPass = .ok p) (hlen : file.length < 2 ^ 63)
    (inUseOnly : Bool) (elsewhere : Nat → Nat) : p.recordsAmong inUseOnly elsewhere (file.length + 2) 0 0 = some (p.fileRecords inUseOnly) := by
  have hf : p.file = file ∧ (p.size = 1024 ∨ p.size = 4096) := by
    unfold Parser.init at h
    obtain ⟨-, h⟩ := of_ite_error h
    dsimp only at h
    obtain ⟨-, h⟩ := of_ite_error h
    obtain ⟨hsz, h⟩ := of_ite_error h
    have hsz := mem_sizes.1 (Decidable.not_not.1 hsz)
    generalize leNat (slice file 28 32) = size at *
    split at h
    · cases h
    split at h
    · cases h
    split at h
    · split at h
      · cases h
      · cases h; exact ⟨rfl, hsz⟩
    · cases h; exact ⟨rfl, hsz⟩
  have hp : Usual p := ⟨by rw [hf.1]; exact hlen, by omega⟩
  refine recordsAmong_eq hp (by omega) inUseOnly elsewhere _ 0 0 ?_
  rw [hf.1]
  omega

/-- C134: and a look-up gives the same from all positions of the file object. -/
theorem C134_lookup (file : Bytes) (p : Parser) (doFirstPass : Bool) (h : Parser.init file doFirstPass = .ok p) (hlen : file.length < 2 ^ 63)
    (position n : Nat) (expected : Option Nat) : (p.sharedRecord position n expected).1 = p.getRecord n expected := by
  have hf : p.file = file ∧ (p.size = 1024 ∨ p.size = 4096) := by
    unfold Parser.init at h
    obtain ⟨-, h⟩ := of_ite_error h
    dsimp only at h
    obtain ⟨-, h⟩ := of_ite_error h
    obtain ⟨hsz, h⟩ := of_ite_error h
    have hsz := mem_sizes.1 (Decidable.not_not.1 hsz)
    generalize leNat (slice file 28 32) = size at *
    split at h
    · cases h
    split at h
    · cases h
    split at h
    · split at h
      · cases h
      · cases h; exact ⟨rfl, hsz⟩
    · cases h; exact ⟨rfl, hsz⟩
  exact sharedRecord_data ⟨by rw [hf.1]; exact hlen, by omega⟩ position n expected

end Verif.Props.Shared
