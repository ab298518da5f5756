/-
C81: which directories are taken for orphaned ones by a walk over a FAT volume.
-/
import Verif.Props.C81
namespace Verif.Props
open Verif.FAT Verif.Spec.FAT Volume

/-! ### The directories that were entered -/

theorem subdirectory_visited {v : Volume} {scanReallocated : Bool} {e : FileEntry} {seen seen' : Seen} {r : Except Exc (Option Bytes)}
    (h : v.subdirectory scanReallocated e seen = (r, seen')) :
    seen.visited ⊆ seen'.visited ∧ ∀ buf, r = .ok (some buf) → e.firstCluster ∈ seen'.visited := by
  unfold Volume.subdirectory at h
  dsimp only at h
  split at h
  · cases h; exact ⟨fun _ h => h, fun _ h => by cases h⟩
  · cases h; exact ⟨fun _ h => h, fun _ h => by cases h⟩
  split at h
  · cases h; exact ⟨fun _ h => h, fun _ h => by cases h⟩
  have hs : seen.visited ⊆ seen.visited ++ [e.firstCluster] := fun _ h => List.mem_append_left _ h
  have hm : e.firstCluster ∈ seen.visited ++ [e.firstCluster] := List.mem_append_right _ (List.mem_singleton.mpr rfl)
  split at h
  · cases h; exact ⟨hs, fun _ _ => hm⟩
  split at h
  · cases h; exact ⟨hs, fun _ _ => hm⟩
  split at h
  · cases h; exact ⟨hs, fun _ _ => hm⟩
  split at h <;> (cases h; exact ⟨hs, fun _ _ => hm⟩)

theorem processEntries_visited (v : Volume) (scanReallocated : Bool) (down : Nat → Bytes → Str → List Nat → Seen → Option Walk)
    (hD : ∀ c buf n p s g s', down c buf n p s = some (g, s') → s.visited ⊆ s'.visited) (parent : Str) (items : List Item)
    (stack : List Nat) (prev : Option Nat) (seen : Seen) (g : Gen Item) (seen' : Seen)
    (h : v.processEntries scanReallocated down parent items stack prev seen = some (g, seen')) : seen.visited ⊆ seen'.visited := by
  induction items generalizing stack prev seen g seen' with
  | nil =>
    unfold Volume.processEntries at h
    cases h
    exact fun _ h => h
  | cons item items ih =>
    cases item with
    | orphan name =>
      unfold Volume.processEntries at h
      split at h
      · cases h; exact fun _ h => h
      split at h
      · cases h
      rename_i hr
      cases h
      exact ih _ _ _ _ _ hr
    | file e0 =>
      unfold Volume.processEntries at h
      dsimp only at h
      split at h
      · exact ih _ _ _ _ _ h
      split at h
      · cases h; exact fun _ h => h
      split at h
      · split at h
        · cases h
        rename_i hr
        cases h
        exact ih _ _ _ _ _ hr
      split at h
      · rename_i hsub
        cases h
        exact (subdirectory_visited hsub).1
      · rename_i hsub
        split at h
        · cases h
        rename_i hr
        cases h
        exact fun x hx => ih _ _ _ _ _ hr ((subdirectory_visited hsub).1 hx)
      · rename_i hsub
        split at h
        · cases h
        · rename_i hd
          cases h
          exact fun x hx => hD _ _ _ _ _ _ _ hd ((subdirectory_visited hsub).1 hx)
        · rename_i hd
          split at h
          · cases h
          rename_i hr
          cases h
          exact fun x hx => ih _ _ _ _ _ hr (hD _ _ _ _ _ _ _ hd ((subdirectory_visited hsub).1 hx))

theorem processBuf_visited (v : Volume) (codec : Codec) (scanReallocated : Bool) (fuel : Nat) (buf : Bytes) (name : Str) (path : List Nat) (seen : Seen)
    (g : Gen Item) (seen' : Seen) (h : v.processBuf codec scanReallocated fuel buf name path seen = some (g, seen')) : seen.visited ⊆ seen'.visited := by
  induction fuel generalizing buf name path seen g seen' with
  | zero => unfold Volume.processBuf at h; cases h
  | succ fuel ih =>
    unfold Volume.processBuf Volume.oneDirectory at h
    split at h
    · cases h; exact fun _ h => h
    dsimp only at h
    have key := processEntries_visited v scanReallocated (fun _ => v.processBuf codec scanReallocated fuel)
      (fun _ buf n p s g s' hd => ih buf n p s g s' hd)
    split at h
    · cases h
    · rename_i hp
      cases h
      exact key _ _ _ _ _ _ _ hp
    · rename_i hp
      cases h
      exact key _ _ _ _ _ _ _ hp

/-- When the loop over the entries ends without an exception, every directory that can be entered was, and is remembered as such. -/
theorem processEntries_entered (v : Volume) (scanReallocated : Bool) (down : Nat → Bytes → Str → List Nat → Seen → Option Walk)
    (hD : ∀ c buf n p s g s', down c buf n p s = some (g, s') → s.visited ⊆ s'.visited) (parent : Str) (base : List Nat) (items : List Item)
    (stack : List Nat) (prev : Option Nat) (seen : Seen) (hp : ∀ p, prev = some p → p ∉ base)
    (hst : stack = base ∨ ∃ p, prev = some p ∧ stack = p :: base) (g : Gen Item) (seen' : Seen)
    (h : v.processEntries scanReallocated down parent items stack prev seen = some (g, seen')) (hg : g.err = none) (e : FileEntry) (buf : Bytes)
    (he : .file e ∈ items) (hl : ¬ Loops base e) (hen : Enters v scanReallocated e buf) :
    e.firstCluster ∈ seen'.visited ∧ ∃ seen1 g1 seen2, down e.firstCluster buf (subName parent e) (e.firstCluster :: base) seen1 = some (g1, seen2) ∧
      g1.err = none ∧ seen2.visited ⊆ seen'.visited := by
  induction items generalizing stack prev seen g seen' with
  | nil => cases he
  | cons item items ih =>
    cases item with
    | orphan name =>
      unfold Volume.processEntries at h
      split at h
      · cases h; cases hg
      split at h
      · cases h
      rename_i hr
      cases h
      exact ih _ _ _ hp hst _ _ hr hg (by simpa using he)
    | file e0 =>
      unfold Volume.processEntries at h
      dsimp only at h
      rw [leave_base hp hst] at h
      by_cases hloop : Loops base e0
      · rw [if_pos ((guarded_iff e0 base).mpr hloop)] at h
        rcases List.mem_cons.mp he with he | he
        · cases he; exact absurd hloop hl
        · exact ih base prev seen hp (Or.inl rfl) _ _ h hg he
      · rw [if_neg (fun hh => hloop ((guarded_iff e0 base).mp hh)), expand_file] at h
        obtain ⟨hp', hst'⟩ := next_state (e := e0) hp hloop
        dsimp only at h
        split at h
        · rename_i hen0
          split at h
          · cases h
          rename_i hr
          cases h
          rcases List.mem_cons.mp he with he | he
          · cases he
            exact absurd ((entered_iff e).mpr hen.1) hen0
          · exact ih _ _ _ hp' hst' _ _ hr hg he
        rename_i hen0
        have hsubd := (entered_iff e0).mp (Decidable.not_not.mp hen0)
        split at h
        · cases h; cases hg
        · rename_i hsub
          split at h
          · cases h
          rename_i hr
          cases h
          rcases List.mem_cons.mp he with he | he
          · cases he
            obtain ⟨s, hs | ⟨x, hs⟩⟩ := subdirectory_enters hen seen <;> (rw [hs] at hsub; cases hsub)
          · exact ih _ _ _ hp' hst' _ _ hr hg he
        · rename_i buf0 seen1 hsub
          have hgd := enters_guard (subdirectory_Enters hsubd hsub)
          rw [if_pos hgd] at hp' hst' h
          rw [if_pos hgd] at hst' h
          rw [subName_eq] at h
          split at h
          · cases h
          · cases h; cases hg
          · rename_i hd
            split at h
            · cases h
            rename_i hr
            cases h
            rcases List.mem_cons.mp he with he | he
            · cases he
              obtain ⟨s, hs | ⟨x, hs⟩⟩ := subdirectory_enters hen seen
              · rw [hs] at hsub
                cases hsub
                have hmono := processEntries_visited v scanReallocated down hD _ _ _ _ _ _ _ hr
                exact ⟨hmono (hD _ _ _ _ _ _ _ hd ((subdirectory_visited hs).2 _ rfl)), _, _, _, hd, rfl, hmono⟩
              · rw [hs] at hsub; cases hsub
            · exact ih _ _ _ hp' hst' _ _ hr hg he

theorem processBuf_entered (v : Volume) (codec : Codec) (scanReallocated : Bool) (fuel : Nat) (name : Str) (path : List Nat) (buf : Bytes) (seen : Seen)
    (g : Gen Item) (seen' : Seen) (h : v.processBuf codec scanReallocated fuel buf name path seen = some (g, seen')) (hg : g.err = none)
    (e : FileEntry) (buf' : Bytes) (he : .file e ∈ (listDirectory codec (decide (v.table.type = .fat32)) false buf).items)
    (hl : ¬ Loops path e) (hen : Enters v scanReallocated e buf') :
    e.firstCluster ∈ seen'.visited ∧ ∃ fuel' seen1 g1 seen2,
      v.processBuf codec scanReallocated fuel' buf' (subName name e) (e.firstCluster :: path) seen1 = some (g1, seen2) ∧ g1.err = none ∧
      seen2.visited ⊆ seen'.visited := by
  cases fuel with
  | zero => unfold Volume.processBuf at h; cases h
  | succ fuel =>
    unfold Volume.processBuf Volume.oneDirectory at h
    cases ho : openDirectory buf with
    | error e => rw [ho] at h; cases h; cases hg
    | ok _ =>
      rw [ho] at h
      dsimp only at h
      have hlist : entries codec (decide (v.table.type = .fat32)) false buf = listDirectory codec (decide (v.table.type = .fat32)) false buf := by
        unfold listDirectory; rw [ho]
      rw [hlist] at h
      cases hp : v.processEntries scanReallocated (fun _ => v.processBuf codec scanReallocated fuel) name
          (listDirectory codec (decide (v.table.type = .fat32)) false buf).items path none seen with
      | none => rw [hp] at h; cases h
      | some w =>
        obtain ⟨⟨its, err⟩, seen2⟩ := w
        rw [hp] at h
        cases err with
        | some e => cases h; cases hg
        | none =>
          cases h
          obtain ⟨a1, s1, g1, s2, b1, b2, b3⟩ := processEntries_entered v scanReallocated _
            (fun _ buf n p s g s' hd => processBuf_visited v codec scanReallocated fuel buf n p s g s' hd) name path _ path none seen (by simp) (Or.inl rfl)
            _ _ hp rfl e buf' he hl hen
          exact ⟨a1, fuel, s1, g1, s2, b1, b2, b3⟩

/-! ### What is reported -/

/-- What is reported when a directory is walked is an entry of a directory with the property `R`, if this is one with this property and so are
the directories below those. -/
theorem processBuf_closed {P : Nat → Prop} {R : Str → List Nat → Bytes → Prop} (v : Volume) (codec : Codec) (scanReallocated : Bool)
    (hsub : ∀ name path buf e buf', R name path buf → .file e ∈ (listDirectory codec (decide (v.table.type = .fat32)) false buf).items →
      ¬ Loops path e → Enters v scanReallocated e buf' → R (subName name e) (e.firstCluster :: path) buf')
    (hP : ∀ name path buf e, R name path buf → .file e ∈ (listDirectory codec (decide (v.table.type = .fat32)) false buf).items →
      Remembered v scanReallocated e → P e.firstCluster)
    (fuel : Nat) (name : Str) (path : List Nat) (buf : Bytes) (hr : R name path buf) (seen : Seen) (hk : Knows P seen) (g : Gen Item) (seen' : Seen)
    (h : v.processBuf codec scanReallocated fuel buf name path seen = some (g, seen')) :
    Knows P seen' ∧ ∀ x ∈ g.items, ∃ name path buf item, R name path buf ∧
      item ∈ (listDirectory codec (decide (v.table.type = .fat32)) false buf).items ∧ Reports name path item x := by
  induction fuel generalizing name path buf seen g seen' with
  | zero => unfold Volume.processBuf at h; cases h
  | succ fuel ih =>
    unfold Volume.processBuf Volume.oneDirectory at h
    cases ho : openDirectory buf with
    | error e =>
      rw [ho] at h
      cases h
      exact ⟨hk, fun x hx => by cases hx⟩
    | ok _ =>
      rw [ho] at h
      dsimp only at h
      have hlist : entries codec (decide (v.table.type = .fat32)) false buf = listDirectory codec (decide (v.table.type = .fat32)) false buf := by
        unfold listDirectory; rw [ho]
      rw [hlist] at h
      cases hp : v.processEntries scanReallocated (fun _ => v.processBuf codec scanReallocated fuel) name
          (listDirectory codec (decide (v.table.type = .fat32)) false buf).items path none seen with
      | none => rw [hp] at h; cases h
      | some w =>
        obtain ⟨⟨its, err⟩, seen2⟩ := w
        rw [hp] at h
        obtain ⟨k1, k2⟩ := processEntries_keeps (P := P) (Q := fun x => ∃ name path buf item, R name path buf ∧
            item ∈ (listDirectory codec (decide (v.table.type = .fat32)) false buf).items ∧ Reports name path item x) v scanReallocated
          (fun _ => v.processBuf codec scanReallocated fuel) name path _
          (fun item hi x hx => ⟨name, path, buf, item, hr, hi, hx⟩)
          (fun e he hrem => hP name path buf e hr he hrem)
          (fun e buf' he hl hen seen g seen' hk hd => ih _ _ buf' (hsub _ _ _ _ _ hr he hl hen) seen hk g seen' hd)
          path none seen (by simp) (Or.inl rfl) hk _ _ hp
        cases err <;> (cases h; exact ⟨k1, k2⟩)

/-- The directories in the orphaned directory `buf`, whose first cluster is `c`: itself, and those below it. -/
inductive Below (v : Volume) (codec : Codec) (scanReallocated : Bool) (c : Nat) (start : Bytes) : Str → List Nat → Bytes → Prop where
  | self : Below v codec scanReallocated c start (Str.ofString s!"<Orphan directory {c}>") [] start
  | sub {name path buf e buf'} : Below v codec scanReallocated c start name path buf →
      .file e ∈ (listDirectory codec (decide (v.table.type = .fat32)) false buf).items → ¬ Loops path e → Enters v scanReallocated e buf' →
      Below v codec scanReallocated c start (name ++ Str.ofString "/" ++ e.longName.getD e.shortName) (e.firstCluster :: path) buf'

/-- The deleted directory of an entry that can be reached from the root; its first cluster is in use again, but not by a directory that can be
reached from the root: it is none of the first clusters on the paths of these. -/
def Lost (v : Volume) (codec : Codec) (scanReallocated : Bool) (c : Nat) : Prop :=
  scanReallocated = false ∧
  (∃ name path buf e, Reached v codec scanReallocated false name path buf ∧
    .file e ∈ (listDirectory codec (decide (v.table.type = .fat32)) false buf).items ∧ IsSubdirectory e ∧ e.isDeleted = some true ∧
    v.table.isAllocated e.firstCluster = .ok (some true) ∧ c = e.firstCluster) ∧
  ∀ name path buf, Reached v codec scanReallocated false name path buf → c ∉ path

theorem orphans_closed (v : Volume) (codec : Codec) (scanReallocated : Bool) (fuel : Nat) (l : List Nat)
    (seen : Seen) (g : Gen Item) (seen' : Seen) (h : v.orphans (v.processBuf codec scanReallocated fuel) l seen = some (g, seen')) :
    ∀ x ∈ g.items, ∃ c start, c ∈ l ∧ v.readChain c none = .ok start ∧ 512 ≤ start.length ∧ slice start 0 2 = [0x2E, 0x20] ∧
      slice start 32 35 = [0x2E, 0x2E, 0x20] ∧ ∃ name path buf item, Below v codec scanReallocated c start name path buf ∧
        item ∈ (listDirectory codec (decide (v.table.type = .fat32)) false buf).items ∧ Reports name path item x := by
  induction l generalizing seen g seen' with
  | nil =>
    unfold Volume.orphans at h
    cases h
    exact fun x hx => by cases hx
  | cons c l ih =>
    replace ih : ∀ seen g seen', v.orphans (v.processBuf codec scanReallocated fuel) l seen = some (g, seen') → ∀ x ∈ g.items,
        ∃ c' start, c' ∈ c :: l ∧ _ := fun seen g seen' h x hx => by
      obtain ⟨c', start, h1, h2⟩ := ih seen g seen' h x hx
      exact ⟨c', start, List.mem_cons_of_mem _ h1, h2⟩
    unfold Volume.orphans at h
    cases hb : v.readChain c none with
    | error x =>
      rw [hb] at h
      dsimp only at h
      split at h
      · exact ih seen _ _ h
      · cases h
        exact fun x hx => by cases hx
    | ok buf =>
      rw [hb] at h
      dsimp only at h
      split at h
      · exact ih seen _ _ h
      · rename_i hbuf
        cases hp : v.processBuf codec scanReallocated fuel buf (orphanPath c) [] seen with
        | none => rw [hp] at h; cases h
        | some w =>
          obtain ⟨⟨its, err⟩, seen2⟩ := w
          rw [hp] at h
          have k2 := (processBuf_closed (P := fun _ => True) (R := Below v codec scanReallocated c buf) v codec scanReallocated
            (fun _ _ _ _ _ => .sub) (fun _ _ _ _ _ _ _ => trivial) fuel _ _ _ (by rw [orphanPath_eq]; exact .self) seen (fun _ _ => trivial) _ _ hp).2
          have k3 : ∀ x ∈ its, _ := fun x hx => (⟨c, buf, List.mem_cons_self .., hb, Nat.le_of_not_lt fun h => hbuf (Or.inl h),
            Classical.byContradiction fun h => hbuf (Or.inr (Or.inr h)), Classical.byContradiction fun h => hbuf (Or.inr (Or.inl h)), k2 x hx⟩ :
            ∃ c' start, c' ∈ c :: l ∧ v.readChain c' none = .ok start ∧ 512 ≤ start.length ∧ slice start 0 2 = [0x2E, 0x20] ∧
              slice start 32 35 = [0x2E, 0x2E, 0x20] ∧ ∃ name path buf item, Below v codec scanReallocated c' start name path buf ∧
              item ∈ (listDirectory codec (decide (v.table.type = .fat32)) false buf).items ∧ Reports name path item x)
          cases err with
          | some x => cases h; exact k3
          | none =>
            dsimp only at h
            cases hq : v.orphans (v.processBuf codec scanReallocated fuel) l seen2 with
            | none => rw [hq] at h; cases h
            | some w =>
              rw [hq] at h
              cases h
              intro x hx
              rcases List.mem_append.mp hx with hx | hx
              · exact k3 x hx
              · exact ih seen2 _ _ hq x hx

/-- C81, about orphaned directories: everything that a walk reports is an entry of a directory that can be reached from the root, or it is an
entry in an orphaned directory: one whose entry can be reached from the root, which is deleted and whose first cluster is in use again, but
not by one of the directories that can be reached from the root. -/
theorem C81_orphans (v : Volume) (codec : Codec) (scanReallocated : Bool) (order : List Nat → List Nat) (horder : ∀ l, ∀ c ∈ order l, c ∈ l)
    (depth : Nat) (g : Gen Item) (h : v.walk codec scanReallocated order depth = some g) (x : Item) (hx : x ∈ g.items) :
    (∃ name path buf item, Reached v codec scanReallocated false name path buf ∧
      item ∈ (listDirectory codec (decide (v.table.type = .fat32)) false buf).items ∧ Reports name path item x) ∨
    (∃ c start name path buf item, Lost v codec scanReallocated c ∧ v.readChain c none = .ok start ∧ 512 ≤ start.length ∧
      slice start 0 2 = [0x2E, 0x20] ∧ slice start 32 35 = [0x2E, 0x2E, 0x20] ∧ Below v codec scanReallocated c start name path buf ∧
      item ∈ (listDirectory codec (decide (v.table.type = .fat32)) false buf).items ∧ Reports name path item x) := by
  unfold Volume.walk Volume.walkWith at h
  cases hb : v.root with
  | error x => rw [hb] at h; cases h; cases hx
  | ok r =>
    obtain ⟨buf, stack⟩ := r
    rw [hb] at h
    dsimp only at h
    obtain ⟨hroot, hstack⟩ := root_data hb
    rw [hstack] at h
    cases hp : v.processBuf codec scanReallocated depth buf [] (rootPath v) ⟨[], rootPath v⟩ with
    | none => rw [hp] at h; cases h
    | some w =>
      obtain ⟨⟨its, err⟩, seen⟩ := w
      rw [hp] at h
      obtain ⟨k1, k2⟩ := processBuf_closed (R := Reached v codec scanReallocated false)
        (P := fun c => ∃ name path buf e, Reached v codec scanReallocated false name path buf ∧
          .file e ∈ (listDirectory codec (decide (v.table.type = .fat32)) false buf).items ∧ Remembered v scanReallocated e ∧ c = e.firstCluster)
        v codec scanReallocated (fun _ _ _ _ _ => .sub) (fun name path buf e a b c => ⟨name, path, buf, e, a, b, c, rfl⟩)
        depth _ _ _ (.root hroot) ⟨[], rootPath v⟩ (fun r hr => by cases hr) _ _ hp
      cases err with
      | some y => cases h; exact .inl (k2 x hx)
      | none =>
        dsimp only at h
        have hvis : ∀ name path b, Reached v codec scanReallocated false name path b → (∀ c ∈ path, c ∈ seen.visited) ∧
            ∃ fuel s1 g1 s2, v.processBuf codec scanReallocated fuel b name path s1 = some (g1, s2) ∧ g1.err = none ∧ s2.visited ⊆ seen.visited := by
          intro name path b hr
          induction hr with
          | root hb' =>
            rename_i b
            have hbuf : buf = b := by
              unfold RootData at hb' hroot
              split at hb'
              · rename_i ht
                rw [if_pos ht, hb'] at hroot
                cases hroot; rfl
              · rename_i ht
                rw [if_neg ht] at hroot
                dsimp only at hb' hroot
                rw [hb', hroot]
            subst hbuf
            exact ⟨fun c hc => processBuf_visited v codec scanReallocated _ _ _ _ _ _ _ hp hc, depth, _, _, _, hp, rfl, fun _ h => h⟩
          | sub _ he hl hen ih =>
            obtain ⟨i0, fuel, s1, g1, s2, h1, h2, h3⟩ := ih
            obtain ⟨a1, fuel', s3, g2, s4, b1, b2, b3⟩ := processBuf_entered v codec scanReallocated fuel _ _ _ s1 g1 s2 h1 h2 _ _ he hl hen
            refine ⟨fun c hc => ?_, fuel', s3, g2, s4, b1, b2, fun x hx => h3 (b3 hx)⟩
            rcases List.mem_cons.mp hc with rfl | hc
            · exact h3 a1
            · exact i0 c hc
          | orphan h => cases h
        cases hq : v.orphans (v.processBuf codec scanReallocated depth) (order ((seen.reallocated.filter (· ∉ seen.visited)).eraseDups)) seen with
        | none => rw [hq] at h; cases h
        | some w =>
          rw [hq] at h
          cases h
          rcases List.mem_append.mp hx with hx | hx
          · exact .inl (k2 x hx)
          · right
            obtain ⟨c, start, hc, h1, h2, h3, h4, name, path, b, item, h5, h6, h7⟩ := orphans_closed v codec scanReallocated depth _ seen _ _ hq x hx
            have hc := List.mem_filter.mp (List.mem_eraseDups.mp (horder _ c hc))
            obtain ⟨n, p, b', e, m1, m2, m3, m4⟩ := k1 c hc.1
            refine ⟨c, start, name, path, b, item, ⟨m3.1, ⟨n, p, b', e, m1, m2, m3.2.1, m3.2.2.1, m3.2.2.2, m4⟩, fun n' p' b'' hr hm => ?_⟩,
              h1, h2, h3, h4, h5, h6, h7⟩
            exact absurd ((hvis n' p' b'' hr).1 c hm) (by simpa using hc.2)

/-- The hypotheses of `C81_orphans` are met, in its second case: a walk reports an entry of the orphaned directory in cluster 2. -/
example : ∃ v g x, openVolume orphanVolume 0 none = .ok v ∧ v.walk ascii false id (v.table.lastValidCluster.toNat + 2) = some g ∧ x ∈ g.items ∧
    ∃ e, x = .file e ∧ e.shortName = Str.ofString "<Orphan directory 2>/SUB" := by
  have h : (match openVolume orphanVolume 0 none with
    | .error _ => false
    | .ok v => match v.walk ascii false id (v.table.lastValidCluster.toNat + 2) with
      | none => false
      | some g => g.items.any fun | .file e => decide (e.shortName = Str.ofString "<Orphan directory 2>/SUB") | .orphan _ => false) = true := by
    decide +kernel
  split at h
  · cases h
  rename_i v hv
  split at h
  · cases h
  rename_i g hg
  obtain ⟨x, hx, hx'⟩ := List.any_eq_true.mp h
  split at hx'
  · exact ⟨v, g, _, hv, hg, hx, _, rfl, of_decide_eq_true hx'⟩
  · cases hx'

end Verif.Props
