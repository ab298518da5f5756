/-
C80: which of several deleted entries for the same directory is used when an orphaned directory of an exFAT volume is read.
-/
import Verif.Props.C80_OrphansAll
namespace Verif.Props.ExFAT
open Verif.ExFAT Verif.Spec.ExFAT Volume

/-- One moment is before another one. -/
def Before (a b : Verif.FAT.DateTime) : Prop :=
  a.date.year < b.date.year ∨ a.date.year = b.date.year ∧
  (a.date.month < b.date.month ∨ a.date.month = b.date.month ∧
  (a.date.day < b.date.day ∨ a.date.day = b.date.day ∧
  (a.time.hour < b.time.hour ∨ a.time.hour = b.time.hour ∧
  (a.time.minute < b.time.minute ∨ a.time.minute = b.time.minute ∧
  (a.time.second < b.time.second ∨ a.time.second = b.time.second ∧ a.microsecond < b.microsecond)))))

/-- The fields of a moment are in their ranges. -/
def InRange (a : Verif.FAT.DateTime) : Prop :=
  a.date.month < 13 ∧ a.date.day < 32 ∧ a.time.hour < 24 ∧ a.time.minute < 60 ∧ a.time.second < 60 ∧ a.microsecond < 1000000

theorem digit {a b x y k : Nat} (h : a < b ∨ a = b ∧ x < y) (hx : x < k) : a * k + x < b * k + y := by
  rcases h with h | ⟨rfl, h⟩
  · have : (a + 1) * k ≤ b * k := Nat.mul_le_mul_right k h
    rw [Nat.add_mul] at this
    omega
  · omega

theorem before_instant {a b : Verif.FAT.DateTime} (h : Before a b) (ha : InRange a) : instant a < instant b := by
  obtain ⟨h1, h2, h3, h4, h5, h6⟩ := ha
  unfold instant
  rcases h with h | ⟨e1, h | ⟨e2, h | ⟨e3, h | ⟨e4, h | ⟨e5, h | ⟨e6, h⟩⟩⟩⟩⟩⟩
  · exact digit (.inl (digit (.inl (digit (.inl (digit (.inl (digit (.inl (digit (.inl h) h1)) h2)) h3)) h4)) h5)) h6
  · exact digit (.inl (digit (.inl (digit (.inl (digit (.inl (digit (.inl (digit (.inr ⟨e1, h⟩) h1)) h2)) h3)) h4)) h5)) h6
  · rw [e1, e2]
    exact digit (.inl (digit (.inl (digit (.inl (digit (.inl (digit (.inr ⟨rfl, h⟩) h2)) h3)) h4)) h5)) h6
  · rw [e1, e2, e3]
    exact digit (.inl (digit (.inl (digit (.inl (digit (.inr ⟨rfl, h⟩) h3)) h4)) h5)) h6
  · rw [e1, e2, e3, e4]
    exact digit (.inl (digit (.inl (digit (.inr ⟨rfl, h⟩) h4)) h5)) h6
  · rw [e1, e2, e3, e4, e5]
    exact digit (.inl (digit (.inr ⟨rfl, h⟩) h5)) h6
  · rw [e1, e2, e3, e4, e5, e6]
    exact digit (.inr ⟨rfl, h⟩) h6

theorem monthLength_le (year month : Nat) : Verif.Spec.FAT.monthLength year month ≤ 31 := by
  unfold Verif.Spec.FAT.monthLength
  split
  any_goals omega
  split <;> omega

theorem mtime_inRange {isRoot : Bool} {buf : Bytes} {e : FileEntry} (he : .file e ∈ (listDirectory isRoot buf).items)
    {m : Verif.FAT.DateTime} (hm : e.mtime = some m) : InRange m := by
  obtain ⟨_, primary, _, _, _, _, _, _, hd, _⟩ := C69_set isRoot buf e he
  obtain ⟨⟨_, _, _, h1, _, h2⟩, _, second, ⟨h3, h4, h5, h6⟩, _, h7, h8⟩ := (hd.modified m.date m.time m.microsecond).mp hm
  have := monthLength_le m.date.year m.date.month
  refine ⟨by omega, by omega, h3, h4, ?_, h8⟩
  split at h7 <;> omega

/-- What is remembered for the cluster `c` is not older than `t`. -/
def Newer (c t : Nat) (l : List Reallocated) : Prop :=
  ∃ r m, l.find? (·.firstCluster = c) = some r ∧ r.mtime = some m ∧ t ≤ instant m

theorem remember_newer {e : FileEntry} {l l' : List Reallocated} (h : remember e l = .ok l') :
    (∀ c t, Newer c t l → Newer c t l') ∧ ∀ m, e.mtime = some m → Newer e.firstCluster (instant m) l' := by
  induction l generalizing l' with
  | nil =>
    unfold remember at h
    cases h
    refine ⟨?_, fun m hm => ⟨_, m, List.find?_cons_of_pos (by simp), hm, Nat.le_refl _⟩⟩
    rintro c t ⟨r, m, h1, _⟩
    cases h1
  | cons a l ih =>
    unfold remember at h
    split at h
    · rename_i ha
      split at h
      · rename_i m ts hm hts
        cases h
        refine ⟨?_, ?_⟩
        · rintro c t ⟨r, m', h1, h2, h3⟩
          by_cases hc : a.firstCluster = c
          · rw [List.find?_cons_of_pos (by simpa using hc)] at h1
            cases h1
            rw [hts] at h2
            cases h2
            split
            · exact ⟨_, m, List.find?_cons_of_pos (by simp [← hc, ha]), hm, by omega⟩
            · exact ⟨_, ts, List.find?_cons_of_pos (by simpa using hc), hts, h3⟩
          · rw [List.find?_cons_of_neg (by simpa using hc)] at h1
            refine ⟨r, m', ?_, h2, h3⟩
            rw [List.find?_cons_of_neg]
            · exact h1
            · split
              · simpa [← ha] using hc
              · simpa using hc
        · intro m' hm'
          rw [hm] at hm'
          cases hm'
          split
          · exact ⟨_, m, List.find?_cons_of_pos (by simp), hm, Nat.le_refl _⟩
          · exact ⟨_, ts, List.find?_cons_of_pos (by simpa using ha), hts, by omega⟩
      · cases h
    · rename_i ha
      cases hr : remember e l with
      | error x => rw [hr] at h; cases h
      | ok l1 =>
        rw [hr] at h
        cases h
        obtain ⟨i1, i2⟩ := ih hr
        refine ⟨?_, fun m hm => ?_⟩
        · rintro c t ⟨r, m, h1, h2, h3⟩
          by_cases hc : a.firstCluster = c
          · rw [List.find?_cons_of_pos (by simpa using hc)] at h1
            exact ⟨r, m, by rw [List.find?_cons_of_pos (by simpa using hc)]; exact h1, h2, h3⟩
          · rw [List.find?_cons_of_neg (by simpa using hc)] at h1
            obtain ⟨r', m', j1, j2⟩ := i1 c t ⟨r, m, h1, h2, h3⟩
            exact ⟨r', m', by rw [List.find?_cons_of_neg (by simpa using hc)]; exact j1, j2⟩
        · obtain ⟨r', m', j1, j2⟩ := i2 m hm
          exact ⟨r', m', by rw [List.find?_cons_of_neg (by simpa using ha)]; exact j1, j2⟩

/-- What was seen has something for the directory of the entry that is not older than it. -/
def Kept (e : FileEntry) (seen : Seen) : Prop := ∀ m, e.mtime = some m → Newer e.firstCluster (instant m) seen.reallocated

theorem subdirectory_newer {v : Volume} {scanReallocated : Bool} {e : FileEntry} {seen seen' : Seen} {r : Except Exc (Option Bytes)}
    (h : v.subdirectory scanReallocated e seen = (r, seen')) :
    (∀ e', Kept e' seen → Kept e' seen') ∧ ∀ o, r = .ok o → Remembered v scanReallocated e → Kept e seen' := by
  unfold Volume.subdirectory at h
  split at h
  · cases h; exact ⟨fun _ h => h, fun _ h => by cases h⟩
  · rename_i ha
    cases h
    exact ⟨fun _ h => h, fun _ _ hr => by rw [hr.2.2.2] at ha; cases ha⟩
  rename_i allocated ha
  split at h
  · rename_i hd
    cases h
    exact ⟨fun _ h => h, fun _ _ hr => by rw [hr.2.1] at hd; cases hd⟩
  split at h
  · split at h
    · cases h
      exact ⟨fun _ h => h, fun _ h => by cases h⟩
    · rename_i l hl
      cases h
      exact ⟨fun e' hk m hm => (remember_newer hl).1 _ _ (hk m hm), fun _ _ _ m hm => (remember_newer hl).2 m hm⟩
  rename_i hr
  have hn : ¬ Remembered v scanReallocated e := fun hm => hr ⟨hm.1, hm.2.2.1, by
    have := hm.2.2.2
    rw [ha] at this
    cases this
    rfl⟩
  dsimp only at h
  split at h
  · cases h; exact ⟨fun _ h => h, fun _ _ hm => absurd hm hn⟩
  split at h <;> (cases h; exact ⟨fun _ h => h, fun _ _ hm => absurd hm hn⟩)

theorem orphans_newest (v : Volume) (scanReallocated : Bool) (fuel : Nat) (l : List Nat) {J : FileEntry → Prop}
    (seen : Seen) (hk : Knows (Source v scanReallocated) [] seen) (hJ : ∀ e, J e → Kept e seen) (g : Gen Item) (seen' : Seen)
    (h : v.orphans (v.processBuf scanReallocated fuel) l seen = some (g, seen')) :
    ∀ x ∈ g.items, ∃ r start, r.firstCluster ∈ l ∧ Source v scanReallocated r ∧
      (∀ e m, J e → e.firstCluster = r.firstCluster → e.mtime = some m → ∃ m', r.mtime = some m' ∧ instant m ≤ instant m') ∧
      v.readChain r.firstCluster (some r.size) r.noFatChain = .ok start ∧ 512 ≤ start.length ∧ u8 start 0 = 0x05 ∧
      u8 start 32 = 0x40 ∧ u8 start 64 = 0x41 ∧ ∃ name path buf item, Below v scanReallocated r.firstCluster start name path buf ∧
        item ∈ (listDirectory (decide (name = [])) buf).items ∧ Reports name path item x := by
  induction l generalizing seen g seen' with
  | nil =>
    unfold Volume.orphans at h
    cases h
    exact fun x hx => by cases hx
  | cons c l ih =>
    replace ih := fun seen hk hJ g seen' h x hx => (ih seen hk hJ g seen' h x hx).imp fun r hr => hr.imp fun start hr =>
      And.intro (List.mem_cons_of_mem c hr.1) hr.2
    unfold Volume.orphans at h
    split at h
    · cases h
      exact fun x hx => by cases hx
    rename_i r hf
    have hsrc := hk.1 r (List.mem_of_find?_eq_some hf)
    have hrc : r.firstCluster = c := by simpa using List.find?_some hf
    cases hb : v.readChain c (some r.size) r.noFatChain with
    | error x =>
      rw [hb] at h
      dsimp only at h
      split at h
      · exact ih seen hk hJ _ _ h
      · cases h
        exact fun x hx => by cases hx
    | ok buf =>
      rw [hb] at h
      dsimp only at h
      split at h
      · exact ih seen hk hJ _ _ h
      · rename_i hbuf
        cases hp : v.processBuf scanReallocated fuel buf (orphanPath c) [] seen with
        | none => rw [hp] at h; cases h
        | some w =>
          obtain ⟨⟨its, err⟩, seen2⟩ := w
          rw [hp] at h
          have k2 := (processBuf_closed (P := fun _ => True) (R := Below v scanReallocated c buf) v scanReallocated
            (fun _ _ _ _ _ => .sub) (fun _ _ _ _ _ _ _ => trivial) fuel _ _ _ (by rw [orphanPath_eq]; exact .self) seen
            ⟨fun _ _ => trivial, fun _ h => by cases h⟩ _ _ hp).2
          have hnew : ∀ e m, J e → e.firstCluster = r.firstCluster → e.mtime = some m → ∃ m', r.mtime = some m' ∧ instant m ≤ instant m' := by
            intro e m hj hec hm
            obtain ⟨r', m', j1, j2, j3⟩ := hJ e hj m hm
            rw [hec, hrc, hf] at j1
            cases j1
            exact ⟨m', j2, j3⟩
          have k3 : ∀ x ∈ its, ∃ r start, r.firstCluster ∈ c :: l ∧ Source v scanReallocated r ∧
              (∀ e m, J e → e.firstCluster = r.firstCluster → e.mtime = some m → ∃ m', r.mtime = some m' ∧ instant m ≤ instant m') ∧
              v.readChain r.firstCluster (some r.size) r.noFatChain = .ok start ∧ 512 ≤ start.length ∧ u8 start 0 = 0x05 ∧
              u8 start 32 = 0x40 ∧ u8 start 64 = 0x41 ∧ ∃ name path buf item, Below v scanReallocated r.firstCluster start name path buf ∧
              item ∈ (listDirectory (decide (name = [])) buf).items ∧ Reports name path item x := fun x hx =>
            ⟨r, buf, by rw [hrc]; exact List.mem_cons_self .., hsrc, hnew, by rw [hrc]; exact hb, by omega, by omega, by omega, by omega,
              by rw [hrc]; exact k2 x hx⟩
          cases err with
          | some x => cases h; exact k3
          | none =>
            dsimp only at h
            cases hq : v.orphans (v.processBuf scanReallocated fuel) l seen2 with
            | none => rw [hq] at h; cases h
            | some w =>
              rw [hq] at h
              cases h
              have hr' : Reached v scanReallocated true (orphanPath c) [] buf := by
                obtain ⟨n, p, b, e, hreach, he, hrem, hre⟩ := hsrc
                have hec : e.firstCluster = c := by rw [← hrc, hre]; rfl
                rw [orphanPath_eq, ← hec]
                refine .orphan rfl hrem.1 hreach he ⟨hrem.2.1, hrem.2.2.1, hrem.2.2.2, ?_, by omega, by omega, by omega, by omega⟩
                rw [hec, ← hb, hre]
                rfl
              intro x hx
              rcases List.mem_append.mp hx with hx | hx
              · exact k3 x hx
              · exact ih seen2 (processBuf_knows v scanReallocated fuel _ _ _ hr' _ hk _ _ hp)
                  (fun e hj => processBuf_still (F := Kept) v scanReallocated (fun _ _ _ _ hs => (subdirectory_newer hs).1) fuel _ _ _ _ _ _ hp e
                    (hJ e hj)) _ _ hq x hx

/-- An entry of a deleted directory whose first cluster is in use again; it is in a directory that can be reached (with `withOrphans` also in or
below an orphaned one). -/
def DeletedEntry (v : Volume) (withOrphans : Bool) (e : FileEntry) : Prop :=
  ∃ name path buf, Reached v false withOrphans name path buf ∧ .file e ∈ (listDirectory (decide (name = [])) buf).items ∧
    (withOrphans = false → ¬ Loops path e) ∧ e.isDirectory = true ∧ e.isDeleted = true ∧ v.bitmap.isAllocated e.firstCluster = .ok (some true)

/-- C80, about orphaned directories: everything that a walk reports is an entry of a directory that can be reached from the root, or it is an
entry in the directory of a deleted entry, and no other deleted entry for a directory with the same first cluster that can be reached from the root
has a later time of modification. -/
theorem C80_newest (v : Volume) (order : List Nat → List Nat) (depth : Nat) (g : Gen Item) (h : v.walk false order depth = some g)
    (x : Item) (hx : x ∈ g.items) :
    (∃ name path buf item, Reached v false false name path buf ∧ item ∈ (listDirectory (decide (name = [])) buf).items ∧
      Reports name path item x) ∨
    (∃ e start name path buf item, DeletedEntry v true e ∧
      (∀ e' m', DeletedEntry v false e' → e'.firstCluster = e.firstCluster → e'.mtime = some m' → ∃ m, e.mtime = some m ∧ ¬ Before m m') ∧
      v.readChain e.firstCluster (some e.size) e.noFatChain = .ok start ∧
      512 ≤ start.length ∧ u8 start 0 = 0x05 ∧ u8 start 32 = 0x40 ∧ u8 start 64 = 0x41 ∧ Below v false e.firstCluster start name path buf ∧
      item ∈ (listDirectory (decide (name = [])) buf).items ∧ Reports name path item x) := by
  unfold Volume.walk Volume.walkWith at h
  dsimp only at h
  cases hb : v.readChain v.br.firstClusterOfRootDirectory none false with
  | error x => rw [hb] at h; cases h; cases hx
  | ok buf =>
    rw [hb] at h
    dsimp only at h
    cases hp : v.processBuf false depth buf [] [v.br.firstClusterOfRootDirectory] ⟨[], []⟩ with
    | none => rw [hp] at h; cases h
    | some w =>
      obtain ⟨⟨its, err⟩, seen⟩ := w
      rw [hp] at h
      have k2 := (processBuf_closed (R := Reached v false false) (P := fun _ => True)
        v false (fun _ _ _ _ _ => .sub) (fun _ _ _ _ _ _ _ => trivial)
        depth _ _ _ (.root hb) ⟨[], []⟩ ⟨(fun r hr => by cases hr), fun c hc => by cases hc⟩ _ _ hp).2
      cases err with
      | some y => cases h; exact .inl (k2 x hx)
      | none =>
        dsimp only at h
        have hk := processBuf_knows (K := []) v false depth _ _ _ (.root hb) ⟨[], []⟩ ⟨(fun r hr => by cases hr), fun c hc => by cases hc⟩ _ _ hp
        have hJ : ∀ e, DeletedEntry v false e → Kept e seen := by
          rintro e ⟨name, path, b, hr, he, hl, m1, m2, m3⟩
          exact root_collected (F := Kept) v false (fun e _ _ _ hs hrem => (subdirectory_newer hs).2 _ rfl hrem)
            (fun _ _ _ _ hs => (subdirectory_newer hs).1) depth buf hb _ seen its hp name path b hr e he (hl rfl) ⟨rfl, m1, m2, m3⟩
        cases hq : v.orphans (v.processBuf false depth) (order ((seen.reallocated.map (·.firstCluster)).filter (· ∉ seen.visited))) seen with
        | none => rw [hq] at h; cases h
        | some w =>
          rw [hq] at h
          cases h
          rcases List.mem_append.mp hx with hx | hx
          · exact .inl (k2 x hx)
          · right
            obtain ⟨r, start, _, ⟨n, p, b, e, hreach, he, hrem, rfl⟩, h0, h1, h2, h3, h4, h5, name, path, b', item, h6, h7, h8⟩ :=
              orphans_newest v false depth _ seen hk hJ _ _ hq x hx
            refine ⟨e, start, name, path, b', item, ⟨n, p, b, hreach, he, (fun h => by cases h), hrem.2.1, hrem.2.2.1, hrem.2.2.2⟩, ?_,
              h1, h2, h3, h4, h5, h6, h7, h8⟩
            intro e' m' hd hec hm
            obtain ⟨m, hm', hle⟩ := h0 e' m' hd hec hm
            exact ⟨m, hm', fun hbef => absurd (before_instant hbef (mtime_inRange he hm')) (by omega)⟩

/-- The hypotheses of `C80_newest` are met, in its second case: a walk reports an entry of the orphaned directory in cluster 4. -/
example : ∃ v g x, openVolume orphanVolume 0 none = .ok v ∧ v.walk false id 8 = some g ∧ x ∈ g.items ∧
    ∃ e, x = .file e ∧ e.name = Str.ofString "<Orphan directory 4>/X" := by
  have h : (match openAfter orphanVolume with
    | .error _ => false
    | .ok v => match v.walk false id 8 with
      | none => false
      | some g => g.items.any fun | .file e => decide (e.name = Str.ofString "<Orphan directory 4>/X") | _ => false) = true := by
    decide +kernel
  split at h
  · cases h
  rename_i v hv
  split at h
  · cases h
  rename_i g hg
  obtain ⟨x, hx, hx'⟩ := List.any_eq_true.mp h
  split at hx'
  · refine ⟨v, g, _, ?_, hg, hx, _, rfl, of_decide_eq_true hx'⟩
    unfold orphanVolume at hv ⊢
    rw [open_tiny _ _ _ (by decide +kernel) (by decide +kernel) (by decide +kernel), hv]
  · cases hx'

end Verif.Props.ExFAT
