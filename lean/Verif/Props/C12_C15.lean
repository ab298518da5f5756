/-
Properties C12-C15: reading and seeking a file described by data runs (dfir_ntfs/MFT.py:1369-1489).
-/
import Verif.Proof.FragmentedFile
namespace Verif.Props
open Verif.MFT Verif.Spec.FragmentedFile

/-- C12: a successful read returns the bytes of the virtual file from the current position on (and
the number of bytes is the one `readCount` says), and the position advances by their number.  The
run lengths are positive in every decoded run list (C03). -/
theorem C12_read_exact (f : FragmentedFile) (hr : ∀ r ∈ f.dataRuns, 0 ≤ r.2) (pos : Nat) (size : Option Int)
    (d : Bytes) (pos' : Nat) (h : f.read pos size = (.ok d, pos')) :
    pos' = pos + d.length ∧
    d.length = (match size with
      | none => f.fileSize - pos
      | some s => if s < 0 then f.fileSize - pos else readCount f pos s.toNat) ∧
    ∀ i, i < d.length → d[i]? = fileByte f (pos + i) := by
  obtain ⟨h1, h2, h3⟩ := FragmentedFile.readSize_ok hr pos _ d pos' h
  refine ⟨h1, ?_, h3⟩
  have hclamp : (f.fileSize - pos : Int).toNat = f.fileSize - pos := by omega
  have hcount : 0 < f.clusterSize → readCount f pos (f.fileSize - pos) = f.fileSize - pos := by
    intro hcs
    have := FragmentedFile.allocatedEnd_ge (f := f) hcs
    unfold readCount
    split <;> omega
  have hzero : f.clusterSize = 0 → f.fileSize - pos = 0 ∨ ∀ s : Int, 0 < s → f.readSize pos s ≠ (.ok d, pos') := by
    intro hz
    by_cases hp : pos < f.fileSize
    · right
      intro s hs hq
      unfold FragmentedFile.readSize at hq
      rw [if_neg (by omega), dif_neg (by omega)] at hq
      cases hq
    · left; omega
  have key : ∀ s : Int, f.readSize pos s = (.ok d, pos') → s = f.fileSize - pos →
      d.length = readCount f pos s.toNat → d.length = f.fileSize - pos := by
    intro s hq hs hd
    subst hs
    rw [hclamp] at hd
    by_cases hcs : 0 < f.clusterSize
    · rw [hd, hcount hcs]
    · rcases hzero (by omega) with hz | hz
      · rw [hd, hz]; unfold readCount; split <;> omega
      · by_cases hp : pos < f.fileSize
        · exact absurd hq (hz _ (by omega))
        · rw [hd]; unfold readCount; rw [if_neg hp]; omega
  cases size with
  | none => exact key _ h rfl h2
  | some s =>
    dsimp only
    by_cases hs : s < 0
    · rw [if_pos hs]
      exact key _ h (by simp [FragmentedFile.effectiveSize, hs]) h2
    · rw [if_neg hs]
      simpa [FragmentedFile.effectiveSize, hs] using h2

/-- C12: when every cluster of the file can be read from the volume, a read succeeds (file positions are less than 2^63). -/
theorem C12_read_succeeds (f : FragmentedFile) (hv : f.volume.length < 2 ^ 63) (hcs : 0 < f.clusterSize) (hr : ∀ r ∈ f.dataRuns, 0 ≤ r.2)
    (hall : ∀ p, p < allocatedEnd f → (fileByte f p).isSome) (pos : Nat) (size : Option Int) :
    ∃ d pos', f.read pos size = (.ok d, pos') := FragmentedFile.readSize_total hv hcs hr hall _ _

/-- Two runs in reverse order on the volume with a hole in between; 2-byte clusters. -/
def demoFragmented : FragmentedFile := ⟨[1, 2, 3, 4, 5, 6, 7, 8], 1, 2, [(some 2, 1), (none, 1), (some 0, 2)], 7⟩
example : demoFragmented.read 1 (some 5) = (.ok [7, 0, 0, 2, 3], 6) := by decide +kernel
example : demoFragmented.read 3 none = (.ok [0, 2, 3, 4], 7) := by decide +kernel
example : demoFragmented.volume.length < 2 ^ 63 ∧ 0 < demoFragmented.clusterSize ∧ (∀ r ∈ demoFragmented.dataRuns, 0 ≤ r.2) ∧
    (∀ p, p < allocatedEnd demoFragmented → (fileByte demoFragmented p).isSome) ∧ allocatedEnd demoFragmented = 8 := by
  decide +kernel

/-- C13 is false of the code: an explicit size makes `read` return bytes beyond the end of the file
(the file has 7 bytes, 8 are returned). -/
theorem C13_explicit_size_exceeds : ∃ (f : FragmentedFile) (d : Bytes) (pos' : Nat),
    f.read 0 (some 100) = (.ok d, pos') ∧ d.length > f.fileSize := by
  exact ⟨demoFragmented, [6, 7, 0, 0, 2, 3, 4, 5], 8, by decide +kernel⟩

/-- C13 (partial).  The full statement: a read at `pos` returns at most `fileSize - pos` bytes.  It
holds for a read without a size or with a negative one, for a size that stays inside the file, and
when the file fills its last cluster; otherwise the read ends at the latest at the end of the
cluster in which the file ends.  Missing: explicit sizes beyond the end of a file that does not fill
its last cluster, for which it is false (`C13_explicit_size_exceeds`). -/
theorem C13_read_in_file_partial (f : FragmentedFile) (hr : ∀ r ∈ f.dataRuns, 0 ≤ r.2) (pos : Nat) (size : Option Int)
    (d : Bytes) (pos' : Nat) (h : f.read pos size = (.ok d, pos')) :
    ((size = none ∨ (∃ s, size = some s ∧ (s < 0 ∨ pos + s ≤ f.fileSize)) ∨ f.fileSize % f.clusterSize = 0 ∨ f.fileSize ≤ pos) →
      d.length ≤ f.fileSize - pos) ∧
    (d ≠ [] → pos < f.fileSize ∧ pos + d.length ≤ allocatedEnd f ∧ pos + d.length < f.fileSize + f.clusterSize) := by
  obtain ⟨-, h2, -⟩ := C12_read_exact f hr pos size d pos' h
  have hge : 0 < f.clusterSize → f.fileSize ≤ allocatedEnd f := fun hcs => FragmentedFile.allocatedEnd_ge hcs
  have hlt : 0 < f.clusterSize → allocatedEnd f < f.fileSize + f.clusterSize := by
    intro hcs
    have e1 := Nat.div_add_mod (f.fileSize + f.clusterSize - 1) f.clusterSize
    unfold allocatedEnd
    rw [Nat.mul_comm]; omega
  have hex : f.fileSize % f.clusterSize = 0 → 0 < f.clusterSize → allocatedEnd f = f.fileSize := by
    intro hm hcs
    obtain ⟨k, hk⟩ := Nat.dvd_of_mod_eq_zero hm
    unfold allocatedEnd
    have : (f.fileSize + f.clusterSize - 1) / f.clusterSize = k := by
      rw [hk, Nat.add_sub_assoc hcs, Nat.mul_add_div hcs, Nat.div_eq_of_lt (by omega), Nat.add_zero]
    rw [this, hk, Nat.mul_comm]
  have hcs0 : d ≠ [] → 0 < f.clusterSize := by
    intro hne
    rcases Nat.eq_zero_or_pos f.clusterSize with hz | hp
    · exfalso
      unfold FragmentedFile.read FragmentedFile.readSize at h
      split at h
      · cases h; exact hne rfl
      · rw [dif_neg (by omega)] at h; cases h
    · exact hp
  have hd0 : d = [] → d.length = 0 := fun h => by simp [h]
  have hd1 : d.length = 0 → d = [] := List.length_eq_zero_iff.1
  unfold readCount at h2
  by_cases hd : d = []
  · refine ⟨fun _ => by rw [hd0 hd]; omega, fun hc => absurd hd hc⟩
  · have hcs := hcs0 hd
    have hdl : 0 < d.length := List.length_pos_iff.2 hd
    have a1 := hge hcs
    have a2 := hlt hcs
    have a3 : f.fileSize % f.clusterSize = 0 → allocatedEnd f = f.fileSize := fun h => hex h hcs
    clear hge hlt hex hcs0
    refine ⟨?_, ?_⟩
    · intro hcase
      cases size with
      | none => dsimp only at h2; omega
      | some s =>
        dsimp only at h2
        rcases hcase with h | ⟨s', hs', h⟩ | h | h
        · cases h
        · cases hs'; split at h2 <;> (try split at h2) <;> omega
        · have := a3 h; split at h2 <;> (try split at h2) <;> omega
        · split at h2 <;> (try split at h2) <;> omega
    · intro _
      cases size with
      | none => dsimp only at h2; omega
      | some s => dsimp only at h2; split at h2 <;> (try split at h2) <;> omega

/-- C14 is false of the code (a consequence of C13): one read of 8 bytes gives 8 bytes, two reads of
7 and 1 bytes give 7. -/
theorem C14_split_differs : ∃ (f : FragmentedFile) (d₁ d₂ d : Bytes) (p₁ p₂ p : Nat),
    f.read 0 (some 7) = (.ok d₁, p₁) ∧ f.read p₁ (some 1) = (.ok d₂, p₂) ∧
    f.read 0 (some (7 + 1)) = (.ok d, p) ∧ d ≠ d₁ ++ d₂ := by
  exact ⟨demoFragmented, [6, 7, 0, 0, 2, 3, 4], [], [6, 7, 0, 0, 2, 3, 4, 5], 7, 7, 8, by decide +kernel⟩

/-- C14 (partial).  The full statement: reading `n` bytes and then `m` bytes gives the same bytes
and the same position as reading `n + m` bytes.  It holds unless the first read ends exactly at the
end of the file or in the rest of its last cluster while the file does not fill that cluster.
Missing: that case, in which it is false (`C14_split_differs`). -/
theorem C14_split_read_partial (f : FragmentedFile) (hr : ∀ r ∈ f.dataRuns, 0 ≤ r.2) (pos n m : Nat)
    (d₁ d₂ d : Bytes) (p₁ p₂ p : Nat)
    (h₁ : f.read pos (some n) = (.ok d₁, p₁)) (h₂ : f.read p₁ (some m) = (.ok d₂, p₂))
    (h : f.read pos (some ((n + m : Nat) : Int)) = (.ok d, p))
    (hin : pos + n < f.fileSize ∨ pos + n + m ≤ f.fileSize ∨ f.fileSize ≤ pos ∨ f.fileSize % f.clusterSize = 0) :
    d = d₁ ++ d₂ ∧ p = p₂ := by
  have key : ∀ (q k : Nat) (e : Bytes) (q' : Nat), f.read q (some (k : Int)) = (.ok e, q') → 0 < f.clusterSize →
      q' = q + e.length ∧ e.length = readCount f q k ∧ ∀ i, i < e.length → e[i]? = fileByte f (q + i) := by
    intro q k e q' hh _
    obtain ⟨a, b, c⟩ := C12_read_exact f hr _ _ _ _ hh
    dsimp only at b
    rw [if_neg (by omega)] at b
    exact ⟨a, by simpa using b, c⟩
  rcases Nat.eq_zero_or_pos f.clusterSize with hz | hcs
  · have hnil : ∀ (q : Nat) (s : Option Int) (e : Bytes) (q' : Nat), f.read q s = (.ok e, q') → e = [] ∧ q' = q := by
      intro q s e q' hh
      unfold FragmentedFile.read FragmentedFile.readSize at hh
      split at hh
      · cases hh; exact ⟨rfl, rfl⟩
      · rw [dif_neg (by omega)] at hh; cases hh
    obtain ⟨a1, a2⟩ := hnil _ _ _ _ h₁
    obtain ⟨b1, b2⟩ := hnil _ _ _ _ h₂
    obtain ⟨c1, c2⟩ := hnil _ _ _ _ h
    subst a1 a2 b1 b2 c1 c2
    exact ⟨rfl, rfl⟩
  · obtain ⟨a1, a2, a3⟩ := key _ _ _ _ h₁ hcs
    obtain ⟨b1, b2, b3⟩ := key _ _ _ _ h₂ hcs
    obtain ⟨c1, c2, c3⟩ := key _ _ _ _ h hcs
    have hge := FragmentedFile.allocatedEnd_ge (f := f) hcs
    have hex : f.fileSize % f.clusterSize = 0 → allocatedEnd f = f.fileSize := by
      intro hm
      obtain ⟨k, hk⟩ := Nat.dvd_of_mod_eq_zero hm
      unfold allocatedEnd
      have : (f.fileSize + f.clusterSize - 1) / f.clusterSize = k := by
        rw [hk, Nat.add_sub_assoc hcs, Nat.mul_add_div hcs, Nat.div_eq_of_lt (by omega), Nat.add_zero]
      rw [this, hk, Nat.mul_comm]
    have hlen : d.length = d₁.length + d₂.length := by
      unfold readCount at a2 b2 c2
      rcases hin with hin | hin | hin | hin
      · split at a2 <;> split at b2 <;> split at c2 <;> omega
      · split at a2 <;> split at b2 <;> split at c2 <;> omega
      · split at a2 <;> split at b2 <;> split at c2 <;> omega
      · have := hex hin
        split at a2 <;> split at b2 <;> split at c2 <;> omega
    refine ⟨?_, by omega⟩
    apply List.ext_getElem?
    intro i
    rw [List.getElem?_append]
    by_cases hi : i < d.length
    · rw [c3 i hi]
      split
      · rename_i h1; rw [a3 i h1]
      · rw [b3 _ (by omega), a1]; congr 1; omega
    · rw [List.getElem?_eq_none (by omega), if_neg (by omega), List.getElem?_eq_none (by omega)]

example : demoFragmented.read 1 (some 2) = (.ok [7, 0], 3) ∧ demoFragmented.read 3 (some 3) = (.ok [0, 2, 3], 6) ∧
    demoFragmented.read 1 (some ((2 + 3 : Nat) : Int)) = (.ok [7, 0, 0, 2, 3], 6) ∧ 1 + 2 < demoFragmented.fileSize := by
  decide +kernel

/-- The position that `seek(offset, whence)` asks for. -/
def seekTarget (f : FragmentedFile) (pos : Nat) (offset whence : Int) : Option Int :=
  if whence = 0 then some offset else if whence = 1 then some (pos + offset)
  else if whence = 2 then some (f.fileSize + offset) else none

/-- C15: `seek` moves to the requested position and returns it if that position exists and is not
negative; otherwise it raises `ValueError` and the position stays. -/
theorem C15_seek_exact (f : FragmentedFile) (pos : Nat) (offset whence : Int) :
    (∀ t : Nat, seekTarget f pos offset whence = some (t : Int) → f.seek pos offset whence = (.ok t, t)) ∧
    ((∀ t : Nat, seekTarget f pos offset whence ≠ some (t : Int)) → f.seek pos offset whence = (.error .ValueError, pos)) := by
  unfold seekTarget FragmentedFile.seek
  constructor
  · intro t h
    split at h
    · simp only [Option.some.injEq] at h; rw [if_pos (by assumption), if_neg (by omega), h]; simp
    split at h
    · rw [if_neg (by assumption), if_pos (by assumption)]
      simp only [Option.some.injEq] at h; rw [if_neg (by omega), h]; simp
    split at h
    · rw [if_neg (by assumption), if_neg (by assumption), if_pos (by assumption)]
      simp only [Option.some.injEq] at h; rw [if_neg (by omega), h]; simp
    · cases h
  · intro h
    split at h
    · rename_i hw
      rw [if_pos hw, if_pos]
      have := h offset.toNat
      simp only [ne_eq, Option.some.injEq] at this; omega
    rename_i hw; rw [if_neg hw]
    split at h
    · rename_i hw
      rw [if_pos hw, if_pos]
      have := h (pos + offset).toNat
      simp only [ne_eq, Option.some.injEq] at this; omega
    rename_i hw; rw [if_neg hw]
    split at h
    · rename_i hw
      rw [if_pos hw, if_pos]
      have := h (f.fileSize + offset).toNat
      simp only [ne_eq, Option.some.injEq] at this; omega
    · rename_i hw; rw [if_neg hw]

/-- A call of the file-like interface. -/
inductive FileOp where
  | seek (offset whence : Int)
  | read (size : Option Int)
  | tell

/-- What a call returned to its caller. -/
inductive FileResult where
  | position (r : Except Exc Nat)
  | data (r : Except Exc Bytes)

/-- Run a history of calls, collecting the results and the final position. -/
def runOps (f : FragmentedFile) : Nat → List FileOp → List FileResult × Nat
  | pos, [] => ([], pos)
  | pos, .seek o w :: ops =>
    let (r, p) := f.seek pos o w
    let (rs, q) := runOps f p ops
    (.position r :: rs, q)
  | pos, .read s :: ops =>
    let (r, p) := f.read pos s
    let (rs, q) := runOps f p ops
    (.data r :: rs, q)
  | pos, .tell :: ops =>
    let (rs, q) := runOps f pos ops
    (.position (.ok (f.tell pos)) :: rs, q)

/-- The position according to the results that the caller saw: the last successful seek plus the
bytes read since. -/
def expectedPosition : Nat → List FileOp → List FileResult → Nat
  | pos, .seek _ _ :: ops, .position (.ok t) :: rs => let _ := pos; expectedPosition t ops rs
  | pos, .read _ :: ops, .data (.ok d) :: rs => expectedPosition (pos + d.length) ops rs
  | pos, _ :: ops, _ :: rs => expectedPosition pos ops rs
  | pos, _, _ => pos

/-- C15 (partial).  The full statement: after every history of calls, `tell` reports the position of
the last successful seek plus the bytes read since.  Proved for histories in which no read raises.
Missing: histories with a failing read, for which it is false (`C15_failed_read_moves`). -/
theorem C15_tell_history_partial (f : FragmentedFile) (hr : ∀ r ∈ f.dataRuns, 0 ≤ r.2) (ops : List FileOp) (pos : Nat)
    (hok : ∀ e, FileResult.data (.error e) ∉ (runOps f pos ops).1) :
    f.tell (runOps f pos ops).2 = expectedPosition pos ops (runOps f pos ops).1 := by
  unfold FragmentedFile.tell
  induction ops generalizing pos with
  | nil => rfl
  | cons op ops ih =>
    cases op with
    | seek o w =>
      simp only [runOps] at hok ⊢
      have hs := C15_seek_exact f pos o w
      cases hsr : f.seek pos o w with
      | mk r p =>
        rw [hsr] at hok
        simp only at hok ⊢
        have ih' := ih p (fun e he => hok e (by simp [he]))
        cases r with
        | ok t =>
          have : t = p := by
            unfold FragmentedFile.seek at hsr
            repeat' split at hsr
            all_goals (first | (cases hsr; done) | (cases hsr; rfl))
          subst this
          simp only [expectedPosition]
          exact ih'
        | error e =>
          have : p = pos := by
            unfold FragmentedFile.seek at hsr
            repeat' split at hsr
            all_goals (first | (cases hsr; done) | (cases hsr; rfl))
          subst this
          simp only [expectedPosition]
          exact ih'
    | read s =>
      simp only [runOps] at hok ⊢
      cases hsr : f.read pos s with
      | mk r p =>
        rw [hsr] at hok
        simp only at hok ⊢
        have ih' := ih p (fun e he => hok e (by simp [he]))
        cases r with
        | ok d =>
          have := (C12_read_exact f hr pos s d p hsr).1
          subst this
          simp only [expectedPosition]
          exact ih'
        | error e => exact absurd (by simp) (hok e)
    | tell =>
      simp only [runOps] at hok ⊢
      have ih' := ih pos (fun e he => hok e (by simp [he]))
      simp only [expectedPosition]
      exact ih'

/-- C15 is false for histories with a failing read: the read raises, nothing is returned, but the
position has moved. -/
theorem C15_failed_read_moves : ∃ (f : FragmentedFile) (e : Exc), f.read 0 none = (.error e, 2) :=
  ⟨⟨[1, 2, 3], 0, 2, [(some 0, 1), (some 5, 1)], 4⟩, .MasterFileTableException, by decide +kernel⟩

example : (runOps demoFragmented 0 [.seek 2 0, .read (some 3), .seek (-100) 1, .tell, .seek (-1) 2, .read none]).2 = 7 := by
  decide +kernel

end Verif.Props
